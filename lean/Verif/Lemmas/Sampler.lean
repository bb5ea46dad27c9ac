import Verif.Model.Sampler

/-!
# Samples in pairs
-/

namespace Verif

open Flt

namespace Sampler
variable {α E : Type} [Flt α] (src : PairSource α E) (order : Equiv.Perm (Fin 3))

/-- The sampler after `k` vectors. -/
def after (k : ℕ) (s : Sampler α E) : Sampler α E := (fun s => (s.vector src order (lit 0)).2)^[k] s

theorem vector_next (k l : α) (s : Sampler α E) : (s.vector src order k).2 = (s.vector src order l).2 := rfl

theorem after_succ (k : ℕ) (s : Sampler α E) (x : α) :
    ((s.after src order k).vector src order x).2 = s.after src order (k + 1) := by
  rw [after, after, Function.iterate_succ_apply']
  exact vector_next ..

/-- Two vectors are six samples, that is three pairs. -/
theorem two_vectors (s : Sampler α E) (x y : α) (h : s.saved = none) :
    (((s.vector src order x).2).vector src order y).2.saved = none := by
  obtain ⟨e, _⟩ := s
  subst h
  rfl

theorem after_even (k : ℕ) (s : Sampler α E) (h : s.saved = none) : (s.after src order (2 * k)).saved = none := by
  induction k with
  | zero => exact h
  | succ k ih =>
    rw [show 2 * (k + 1) = 2 * k + 1 + 1 by ring, ← after_succ src order _ _ (lit 0),
      ← after_succ src order _ _ (lit 0)]
    exact two_vectors src order _ _ _ ih

end Sampler

namespace SImu
variable {α E : Type} [Flt α] (src : PairSource α E) (order : Equiv.Perm (Fin 3))

theorem mk_saved (p : ImuParams α) : (mk' src order p).smp.saved = none :=
  Sampler.two_vectors src order ⟨_, none⟩ (lit 0) (lit 0) rfl

theorem step_saved (i : SImu α E) (o : ImuOp α) (h : i.smp.saved = none) :
    (i.step src order o).smp.saved = none := by
  cases o with
  | update dt f om =>
    simp only [step, update]
    split
    · exact h
    · exact Sampler.two_vectors src order _ (lit 0) (lit 0)
        (Sampler.two_vectors src order _ (lit 0) (lit 0) h)
  | _ => exact h

theorem run_saved (os : List (ImuOp α)) (i : SImu α E) (h : i.smp.saved = none) :
    (i.run src order os).smp.saved = none := by
  induction os generalizing i with
  | nil => exact h
  | cons o os ih => exact ih _ (step_saved src order i o h)

end SImu

end Verif
