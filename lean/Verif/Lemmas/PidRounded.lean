import Verif.Lemmas.PidReal
import Verif.Lemmas.RoundedModel
import Verif.Spec.PidLimited

/-!
# Helper lemmas about the PID in rounded arithmetic
-/

namespace Verif

open Flt Spec

section
variable (A : Rounding) {n : ℕ}

/-- The same parameters as numbers of the rounded arithmetic. -/
def liftPidParams (q : PidParams ℝ n) : PidParams (Fl A) n where
  kp := liftV A q.kp
  ki := liftV A q.ki
  kd := liftV A q.kd
  antiwindup := liftV A q.antiwindup
  alpha := liftV A q.alpha
  resetIntegral := q.resetIntegral
  propSat := q.propSat
  upper := liftV A q.upper
  lower := liftV A q.lower

/-- The same control calls with numbers of the rounded arithmetic. -/
def roundedCalls (e : ℕ → Vec n ℝ) (dt : ℕ → ℝ) (k : ℕ) : List (PidOp (Fl A) n) :=
  calls (fun j => liftV A (e j)) (fun j => ⟨dt j⟩) k

end

section
variable {A : Rounding} {n : ℕ}

namespace Rounding.Near
variable {k : ℕ} {S x y : ℝ}

/-- An exact number of known magnitude. -/
lemma of_abs (h : |x| ≤ S) (k : ℕ) : A.Near k S x x :=
  (Rounding.Near.exact x).mono (Nat.zero_le _) h

/-- Clipping does not add to the errors, if the bounds are as good as the number. -/
lemma clip {lo lo' hi : ℝ} (h : A.Near k S x y) (hl : A.Near k S lo lo') (h1 : lo ≤ hi) (h2 : lo' ≤ hi) (hh : |hi| ≤ S) :
    A.Near k S (if hi < x then hi else if x < lo then lo else x) (max lo' (min hi y)) := by
  obtain ⟨a1, a2⟩ := h
  obtain ⟨b1, b2⟩ := hl
  rw [abs_le] at a1 b1
  refine ⟨?_, ?_⟩
  · rw [abs_le]
    rcases le_total hi y with c1 | c1
    · rw [min_eq_left c1, max_eq_right h2]
      split_ifs <;> constructor <;> linarith
    · rw [min_eq_right c1]
      rcases le_total lo' y with c2 | c2
      · rw [max_eq_right c2]
        split_ifs <;> constructor <;> linarith
      · rw [max_eq_left c2]
        split_ifs <;> constructor <;> linarith
  · rcases le_total hi y with c1 | c1
    · rwa [min_eq_left c1, max_eq_right h2]
    · rw [min_eq_right c1]
      rcases le_total lo' y with c2 | c2
      · rwa [max_eq_right c2]
      · rwa [max_eq_left c2]

end Rounding.Near

/-- Clipping brings two numbers closer together. -/
lemma clip_error {lo hi x y B : ℝ} (h : |x - y| ≤ B) (h1 : lo ≤ hi) :
    |(if hi < x then hi else if x < lo then lo else x) - max lo (min hi y)| ≤ B := by
  have hB := (abs_nonneg _).trans h
  rw [abs_le] at h ⊢
  rcases le_total hi y with c1 | c1
  · rw [min_eq_left c1, max_eq_right h1]
    split_ifs <;> constructor <;> linarith
  · rw [min_eq_right c1]
    rcases le_total lo y with c2 | c2
    · rw [max_eq_right c2]
      split_ifs <;> constructor <;> linarith
    · rw [max_eq_left c2]
      split_ifs <;> constructor <;> linarith

/-- A diagonal matrix times a vector. -/
lemma near_diag {k : ℕ} {S : ℝ} (g : Vec n ℝ) (v : Vec n (Fl A)) (w : ℝ) (i : Fin n) (h : A.Near k S (v i).val w) :
    A.Near (k + 1 + n) (|g i| * S) (mv (mdiag (liftV A g)) v i).val (g i * w) := by
  have h0 : ∀ j, A.Near (k + 1) (if j = i then |g i| * S else 0) (mdiag (liftV A g) i j ⊠ v j).val (if j = i then g i * w else 0) := by
    intro j
    by_cases hj : j = i
    · subst hj
      simp only [if_true, mdiag, liftV]
      exact (((Rounding.Near.exact (g j)).mul h).mono (by omega) le_rfl).rnd
    · have hz : (mdiag (liftV A g) i j ⊠ v j).val = 0 := by
        have : (lit 0 : Fl A).val = 0 := by simp [lit]
        simp only [mdiag, if_neg (Ne.symm hj)]
        change A.rnd ((lit 0 : Fl A).val * (v j).val) = 0
        rw [this, zero_mul, A.rnd_zero]
      rw [hz, if_neg hj, if_neg hj]
      exact ⟨by simp, by simp⟩
  have h1 := Rounding.Near.sum h0
  simp only [Finset.sum_ite_eq', Finset.mem_univ, if_true] at h1
  exact h1

/-- The weight `1 - a` of the filter. -/
lemma weight_error (hu : A.u ≤ 1 / 16) {a : ℝ} (h0 : 0 ≤ a) (h1 : a ≤ 1) :
    |A.rnd (A.rnd 1 - a) - (1 - a)| ≤ 3 * A.u := by
  have hu0 := A.u_nonneg
  have e1 := A.rnd_err 1
  have e2 := A.rnd_err (A.rnd 1 - a)
  rw [abs_one, mul_one] at e1
  have e3 : |A.rnd 1 - a| ≤ 1 + A.u := by
    rw [abs_le] at e1 ⊢
    constructor <;> linarith
  have e4 : A.u * |A.rnd 1 - a| ≤ A.u * (1 + A.u) := mul_le_mul_of_nonneg_left e3 hu0
  rw [abs_le] at e1 e2 ⊢
  constructor <;> nlinarith

/-- One step of the filter: the errors grow by a factor of at most `1 + 12 u`. -/
lemma filter_error (hu : A.u ≤ 1 / 16) {a G F x r f g : ℝ} (h0 : 0 ≤ a) (h1 : a ≤ 1) (hx : |x - r| ≤ 3 * A.u * G) (hr : |r| ≤ G)
    (hf : |f - g| ≤ F) (hg : |g| ≤ G) :
    |A.rnd (A.rnd (a * x) + A.rnd (A.rnd (A.rnd 1 - a) * f)) - (a * r + (1 - a) * g)| ≤ (1 + 12 * A.u) * F + 12 * A.u * G := by
  have hu0 := A.u_nonneg
  have hG : 0 ≤ G := (abs_nonneg _).trans hr
  have hF : 0 ≤ F := (abs_nonneg _).trans hf
  set c := A.rnd (A.rnd 1 - a) with hc
  have hc1 := weight_error hu h0 h1
  rw [← hc] at hc1
  have hc2 : |c| ≤ 1 + 3 * A.u := by
    rw [abs_le] at hc1 ⊢
    constructor <;> linarith
  have hx2 : |x| ≤ (1 + 3 * A.u) * G := by
    have : |x| ≤ |x - r| + |r| := by simpa using abs_add_le (x - r) r
    nlinarith
  have hf2 : |f| ≤ F + G := by
    have : |f| ≤ |f - g| + |g| := by simpa using abs_add_le (f - g) g
    linarith
  -- first product
  have p1 : |A.rnd (a * x) - a * r| ≤ 5 * A.u * G := by
    have t1 := A.rnd_err (a * x)
    have t2 : |a * x| ≤ (1 + 3 * A.u) * G := by
      rw [abs_mul, abs_of_nonneg h0]
      nlinarith [abs_nonneg x]
    have t3 : |a * x - a * r| ≤ 3 * A.u * G := by
      rw [← mul_sub, abs_mul, abs_of_nonneg h0]
      nlinarith [abs_nonneg (x - r)]
    have t4 : |A.rnd (a * x) - a * r| ≤ |A.rnd (a * x) - a * x| + |a * x - a * r| := abs_sub_le _ _ _
    have t5 := mul_le_mul_of_nonneg_left t2 hu0
    have t6 : A.u * ((1 + 3 * A.u) * G) ≤ 2 * A.u * G := by
      have : A.u * (1 + 3 * A.u) ≤ 2 * A.u := by nlinarith
      have := mul_le_mul_of_nonneg_right this hG
      linarith
    linarith
  have p2 : |A.rnd (c * f) - (1 - a) * g| ≤ (1 - a) * F + 5 * A.u * (F + G) := by
    have t1 := A.rnd_err (c * f)
    have t2 : |c * f| ≤ (1 + 3 * A.u) * (F + G) := by
      rw [abs_mul]
      exact mul_le_mul hc2 hf2 (abs_nonneg _) (by linarith)
    have t3 : |c * f - (1 - a) * f| ≤ 3 * A.u * (F + G) := by
      rw [← sub_mul, abs_mul]
      exact mul_le_mul hc1 hf2 (abs_nonneg _) (by linarith)
    have t4 : |(1 - a) * f - (1 - a) * g| ≤ (1 - a) * F := by
      rw [← mul_sub, abs_mul, abs_of_nonneg (by linarith : 0 ≤ 1 - a)]
      exact mul_le_mul_of_nonneg_left hf (by linarith)
    have t5 : |A.rnd (c * f) - (1 - a) * g| ≤ |A.rnd (c * f) - c * f| + |c * f - (1 - a) * f| + |(1 - a) * f - (1 - a) * g| := by
      have s1 := abs_sub_le (A.rnd (c * f)) (c * f) ((1 - a) * g)
      have s2 := abs_sub_le (c * f) ((1 - a) * f) ((1 - a) * g)
      linarith
    have t6 := mul_le_mul_of_nonneg_left t2 hu0
    have t7 : A.u * ((1 + 3 * A.u) * (F + G)) ≤ 2 * A.u * (F + G) := by
      have : A.u * (1 + 3 * A.u) ≤ 2 * A.u := by nlinarith
      have := mul_le_mul_of_nonneg_right this (add_nonneg hF hG)
      linarith
    linarith
  set s := A.rnd (a * x) + A.rnd (c * f) with hs
  have hsum : |s - (a * r + (1 - a) * g)| ≤ (1 - a) * F + 5 * A.u * F + 10 * A.u * G := by
    have e : s - (a * r + (1 - a) * g) = (A.rnd (a * x) - a * r) + (A.rnd (c * f) - (1 - a) * g) := by rw [hs]; ring
    rw [e]
    have := abs_add_le (A.rnd (a * x) - a * r) (A.rnd (c * f) - (1 - a) * g)
    linarith
  have hgr : |a * r + (1 - a) * g| ≤ G := by
    have t1 := abs_add_le (a * r) ((1 - a) * g)
    rw [abs_mul, abs_mul, abs_of_nonneg h0, abs_of_nonneg (by linarith : 0 ≤ 1 - a)] at t1
    nlinarith
  have hs2 : |s| ≤ 2 * (F + G) := by
    have : |s| ≤ |s - (a * r + (1 - a) * g)| + |a * r + (1 - a) * g| := by
      simpa using abs_add_le (s - (a * r + (1 - a) * g)) (a * r + (1 - a) * g)
    have e1 : A.u * F ≤ 1 / 16 * F := mul_le_mul_of_nonneg_right hu hF
    have e2 : A.u * G ≤ 1 / 16 * G := mul_le_mul_of_nonneg_right hu hG
    have e3 : 0 ≤ a * F := mul_nonneg h0 hF
    linarith
  have h3 := A.rnd_err s
  have h4 := mul_le_mul_of_nonneg_left hs2 hu0
  have h5 := abs_sub_le (A.rnd s) s (a * r + (1 - a) * g)
  have h6 : 0 ≤ a * F := mul_nonneg h0 hF
  have h7 : 0 ≤ A.u * F := mul_nonneg hu0 hF
  linarith

/-- `m` factors of `1 + 12 u` are at most `12 m` roundings. -/
lemma twelve_le (m : ℕ) : (1 + 12 * A.u) * (1 + A.u) ^ (12 * m) ≤ (1 + A.u) ^ (12 * (m + 1)) := by
  have h1 : 1 + 12 * A.u ≤ (1 + A.u) ^ 12 := by
    have := one_add_mul_le_pow (a := A.u) (by linarith [A.u_nonneg]) 12
    push_cast at this
    exact this
  have h2 : (1 + A.u) ^ (12 * (m + 1)) = (1 + A.u) ^ 12 * (1 + A.u) ^ (12 * m) := by rw [← pow_add]; congr 1; ring
  rw [h2]
  exact mul_le_mul_of_nonneg_right h1 (by have := A.u_nonneg; positivity)

/-- The same step as an error of roundings. -/
lemma near_filter (hu : A.u ≤ 1 / 16) {m : ℕ} {a G x r f g : ℝ} (h0 : 0 ≤ a) (h1 : a ≤ 1) (hx : |x - r| ≤ 3 * A.u * G)
    (hr : |r| ≤ G) (hf : A.Near (12 * m) G f g) :
    A.Near (12 * (m + 1)) G (A.rnd (A.rnd (a * x) + A.rnd (A.rnd (A.rnd 1 - a) * f))) (a * r + (1 - a) * g) := by
  have hG : 0 ≤ G := (abs_nonneg _).trans hr
  refine ⟨(filter_error hu h0 h1 hx hr hf.1 hf.2).trans ?_, ?_⟩
  · have := mul_le_mul_of_nonneg_right (twelve_le (A := A) m) hG
    nlinarith
  · have t1 := abs_add_le (a * r) ((1 - a) * g)
    rw [abs_mul, abs_mul, abs_of_nonneg h0, abs_of_nonneg (by linarith : 0 ≤ 1 - a)] at t1
    nlinarith [hf.2]

/-- The difference quotient. -/
lemma quotient_error (hu : A.u ≤ 1 / 16) {x y E d G : ℝ} (hx : |x| ≤ E) (hy : |y| ≤ E) (hd : 0 < d) (hG : 2 * E / d ≤ G) :
    |A.rnd (A.rnd (x - y) / d) - (x - y) / d| ≤ 3 * A.u * G ∧ |(x - y) / d| ≤ G := by
  have hu0 := A.u_nonneg
  have h1 : A.Near 2 (2 * E / d) (A.rnd (A.rnd (x - y) / d)) ((x - y) / d) := by
    have := (((Rounding.Near.of_abs (A := A) hx 0).sub (Rounding.Near.of_abs hy 0)).rnd.div_const d).rnd
    rw [abs_of_pos hd] at this
    exact this.mono le_rfl (by rw [two_mul])
  have hG0 : 0 ≤ G := h1.nonneg.trans hG
  have h2 := h1.mono le_rfl hG
  refine ⟨h2.1.trans ?_, h2.2⟩
  have : (1 + A.u) ^ 2 - 1 ≤ 3 * A.u := by nlinarith
  exact mul_le_mul_of_nonneg_right this hG0

/-- The negated anti-windup constant. -/
lemma near_neg_aw (hu : A.u ≤ 1 / 16) {w : ℝ} (hw : 0 ≤ w) :
    A.Near 2 w (A.rnd (A.rnd (-1) * w)) (-w) ∧ A.rnd (A.rnd (-1) * w) ≤ w := by
  have hu0 := A.u_nonneg
  have h1 : A.Near 1 1 (A.rnd (-1)) (-1) := by
    have := (Rounding.Near.exact (A := A) (-1)).rnd
    simpa using this
  have h2 := ((h1.mul (Rounding.Near.of_abs (A := A) (le_of_eq (abs_of_nonneg hw)) 0))).rnd
  have h3 : A.Near 2 w (A.rnd (A.rnd (-1) * w)) (-w) := by simpa using h2
  refine ⟨h3, ?_⟩
  have h4 := (abs_le.1 h3.1).2
  have : (1 + A.u) ^ 2 - 1 ≤ 1 := by nlinarith
  have := mul_le_mul_of_nonneg_right this hw
  linarith

end

namespace Pid
variable {α : Type} [Flt α] {n : ℕ}

/-- What a control call stores, in any arithmetic. -/
lemma computeControl_stores (p : Pid α n) (dt : α) (e : Vec n α) :
    let p0 := p.firstRunInit e
    let r := (p.computeControl dt e).1
    r.firstRun = false ∧ r.integral = p0.accumulate dt e ∧ r.propErr = e ∧
    r.filtered = vadd (vmul p.alpha (sdiv (vsub e p0.propErr) dt)) (vmul (vsub vones p.alpha) p0.filtered) ∧
    r.propContrib = mv p.kpMat e ∧ r.intContrib = mv p.kiMat r.integral ∧
    r.derivContrib = mv p.kdMat r.filtered := by
  unfold computeControl firstRunInit
  by_cases h : p.firstRun = true
  · simp [h, computeIntegral, computeDerivativeByDeriving, finishOutput, computeDerivative, accumulate]
  · simp [h, computeIntegral, computeDerivativeByDeriving, finishOutput, computeDerivative, accumulate]

end Pid

end Verif
