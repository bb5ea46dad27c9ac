import Verif.Props.HoverHold
import Verif.Lemmas.ApproxModel

/-!
# A call of a controller in rounded arithmetic

A rounded call follows the exact one while no limit is reached.
-/

namespace Verif.Props

open Verif Flt Spec Stability Filter Topology Asymptotics

/-! ## Controllers -/

/-- The values of the members of a PID. -/
def valPid {A : Rounding} (p : Pid (Fl A) 3) : Pid ℝ 3 where
  kpMat := p.kpMat.map Fl.val
  kiMat := p.kiMat.map Fl.val
  kdMat := p.kdMat.map Fl.val
  antiwindup := valV p.antiwindup
  alpha := valV p.alpha
  resetIntegral := p.resetIntegral
  satFlag := p.satFlag
  propSat := p.propSat
  upper := valV p.upper
  lower := valV p.lower
  firstRun := p.firstRun
  integral := valV p.integral
  filtered := valV p.filtered
  propErr := valV p.propErr
  derivErr := valV p.derivErr
  propContrib := valV p.propContrib
  intContrib := valV p.intContrib
  derivContrib := valV p.derivContrib
  output := valV p.output

/-- The configuration of a PID as the arithmetic stores it. -/
structure Stored {A : Rounding} (κ : ℝ) (q : Pid (Fl A) 3) (b : Pid ℝ 3) : Prop where
  kp : ∀ i j, A.Stores κ (q.kpMat i j).val (b.kpMat i j)
  ki : ∀ i j, A.Stores κ (q.kiMat i j).val (b.kiMat i j)
  kd : ∀ i j, A.Stores κ (q.kdMat i j).val (b.kdMat i j)
  antiwindup : ∀ i, A.Stores κ (q.antiwindup i).val (b.antiwindup i)
  alpha : ∀ i, A.Stores κ (q.alpha i).val (b.alpha i)
  upper : ∀ i, A.Stores κ (q.upper i).val (b.upper i)
  lower : ∀ i, A.Stores κ (q.lower i).val (b.lower i)
  resetIntegral : q.resetIntegral = b.resetIntegral
  satFlag : q.satFlag = b.satFlag
  propSat : q.propSat = b.propSat

section
variable {ι : Type} {L : Filter ι} {A : ι → Rounding} [Fine L A]

omit [Fine L A] in
lemma trk_relimit {x : ∀ i, Fl (A i)} {a : ι → ℝ} {a0 b0 : ℝ} (h : Trk L x a a0) (h' : Tendsto a L (𝓝 b0)) :
    Trk L x a b0 := ⟨h.1, h'⟩

/-- A diagonal matrix; axes without a gain do not matter. -/
lemma trk_diag {M : ∀ i, Mat 3 3 (Fl (A i))} {d : Vec 3 ℝ} {κ : ℝ}
    (hM : ∀ i j k, (A i).Stores κ (M i j k).val (Matrix.diagonal d j k))
    {v : ∀ i, Vec 3 (Fl (A i))} {a : ι → Vec 3 ℝ} {a0 : Vec 3 ℝ} (j : Fin 3)
    (h : d j ≠ 0 → Trk L (fun i => v i j) (fun i => a i j) (a0 j)) :
    Trk L (fun i => mv (M i) (v i) j) (fun i => d j * a i j) (d j * a0 j) := by
  have e : ∀ b : Vec 3 ℝ, vsum (fun k => if k = j then d j * b j else 0) = d j * b j := fun b => by
    simp [flt]
  have hM' : ∀ i k, (A i).Stores κ (M i j k).val (if k = j then d j else 0) := fun i k => by
    have := hM i j k
    simp only [Matrix.diagonal_apply] at this
    simpa only [eq_comm] using this
  have hv : TrkV L (fun i k => M i j k ⊠ v i k) (fun i k => if k = j then d j * a i j else 0)
      (fun k => if k = j then d j * a0 j else 0) := by
    intro k
    by_cases hk : k = j
    · subst hk
      simp only [if_true]
      by_cases hd : d k = 0
      · simp only [hd, zero_mul]
        exact .exact (fun i => Trk.zero_mul ((hM' i k).2 (by rw [if_pos rfl, hd]))) tendsto_const_nhds
      · have hm : Trk L (fun i => M i k k) (fun _ => d k) (d k) :=
          .stored (κ := κ) fun i => by simpa using hM' i k
        exact hm.mul (h hd)
    · simp only [if_neg hk]
      exact .exact (fun i => Trk.zero_mul ((hM' i k).2 (if_neg hk))) tendsto_const_nhds
  have := Trk.vsum hv
  simp only [e] at this
  exact this

/-- Limits that are not reached. -/
lemma trk_saturate {o : ∀ i, Vec 3 (Fl (A i))} {a : ι → Vec 3 ℝ} {a0 : Vec 3 ℝ} {up lo : ∀ i, Vec 3 (Fl (A i))}
    {U W : Vec 3 ℝ} {κ : ℝ} (hu : ∀ i j, (A i).Stores κ (up i j).val (U j)) (hl : ∀ i j, (A i).Stores κ (lo i j).val (W j))
    (b : ι → Bool)
    (h : TrkV L o a a0) (hi : ∀ j, W j < a0 j ∧ a0 j < U j) :
    TrkV L (fun i => Pid.saturateOutput (o i) (up i) (lo i) (b i)) a a0 := by
  have tu : ∀ j, Trk L (fun i => up i j) (fun _ => U j) (U j) := fun j => .stored fun i => hu i j
  have tl : ∀ j, Trk L (fun i => lo i j) (fun _ => W j) (W j) := fun j => .stored fun i => hl i j
  -- element by element
  have h1 : TrkV L (fun i => Pid.saturateOutput (o i) (up i) (lo i) false) a a0 := by
    intro j
    refine (h j).congr ?_ (.of_forall fun _ => rfl)
    filter_upwards [(h j).lt_of (tu j) (hi j).2, (tl j).lt_of (h j) (hi j).1] with i e1 e2
    simp [Pid.saturateOutput, e1.2, e2.2]
  -- scaled as a whole
  have h2 : TrkV L (fun i => Pid.saturateOutput (o i) (up i) (lo i) true) a a0 := by
    have key : ∀ (js : List (Fin 3)) (o : ∀ i, Vec 3 (Fl (A i))), TrkV L o a a0 →
        TrkV L (fun i => js.foldl (Pid.propSatStep (up i) (lo i)) (o i)) a a0 := by
      intro js
      induction js with
      | nil => exact fun o h => h
      | cons j js ih =>
        intro o h
        refine ih _ fun k => ?_
        have h1 := (Trk.lit (L := L) (A := A) 1).mul (h k)
        have e1 : ∀ b : ℝ, (lit 1 : ℝ) ⊠ b = b := fun b => by simp [flt]
        simp only [e1] at h1
        refine h1.congr ?_ (.of_forall fun _ => rfl)
        filter_upwards [(h j).lt_of (tu j) (hi j).2, (tl j).lt_of (h j) (hi j).1] with i e1 e2
        simp [Pid.propSatStep, e1.2, e2.2]
        rfl
    have := key (List.finRange 3) o h
    simpa [Pid.saturateOutput] using this
  intro j
  have h1' := h1 j
  have h2' := h2 j
  refine ⟨?_, h1'.2⟩
  refine IsBigO.trans (IsBigO.of_bound 1 (.of_forall fun i => ?_)) (h1'.1.norm_left.add h2'.1.norm_left)
  rw [one_mul, Real.norm_of_nonneg (add_nonneg (norm_nonneg _) (norm_nonneg _))]
  have n1 := norm_nonneg ((Pid.saturateOutput (o i) (up i) (lo i) false j).val - a i j)
  have n2 := norm_nonneg ((Pid.saturateOutput (o i) (up i) (lo i) true j).val - a i j)
  beta_reduce
  cases b i <;> linarith

/-- A call of a rounded controller follows the exact one. -/
lemma Tuned.track {b : Pid ℝ 3} {k : Fin 3 → PidTuning} (h : Tuned b k) {q : ∀ i, Pid (Fl (A i)) 3}
    {κ : ℝ} (hc : ∀ i, Stored κ (q i) b) {e : ∀ i, Vec 3 (Fl (A i))} {e' I f E : ι → Vec 3 ℝ} {e0 I0 f0 E0 : Vec 3 ℝ}
    (he : TrkV L e e' e0) (hm : ∀ i, Held (valPid (q i)) k (e' i) (I i) (f i) (E i))
    (lI : ∀ j, Tendsto (fun i => I i j) L (𝓝 (I0 j))) (lf : ∀ j, Tendsto (fun i => f i j) L (𝓝 (f0 j)))
    (lE : ∀ j, Tendsto (fun i => E i j) L (𝓝 (E0 j))) {dt : ℝ} (hdt : dt ≠ 0) {δ : ∀ i, Fl (A i)}
    (hdt' : Trk L δ (fun _ => dt) dt) (hI : Unwound b k I0)
    (hJ : Unwound b k fun j => nextInt (.id ℝ) (k j) dt (I0 j) (e0 j))
    (ho : Unbounded b fun j => respond (.id ℝ) (k j) dt (I0 j) (f0 j) (E0 j) (e0 j)) :
    TrkV L (fun i => ((q i).computeControl (δ i) (e i)).2)
      (fun i j => respond (.id ℝ) (k j) dt (I i j) (f i j) (E i j) (e' i j))
      (fun j => respond (.id ℝ) (k j) dt (I0 j) (f0 j) (E0 j) (e0 j)) ∧
    (∀ i, Stored κ ((q i).computeControl (δ i) (e i)).1 b ∧ ((q i).computeControl (δ i) (e i)).1.firstRun = false ∧
      ((q i).computeControl (δ i) (e i)).1.propErr = e i) ∧
    (∀ j, (k j).ki ≠ 0 → Trk L (fun i => ((q i).computeControl (δ i) (e i)).1.integral j)
      (fun i => nextInt (.id ℝ) (k j) dt (I i j) (e' i j)) (nextInt (.id ℝ) (k j) dt (I0 j) (e0 j))) ∧
    (∀ j, (k j).kd ≠ 0 → Trk L (fun i => ((q i).computeControl (δ i) (e i)).1.filtered j)
      (fun i => nextFil (.id ℝ) (k j) dt (f i j) (E i j) (e' i j)) (nextFil (.id ℝ) (k j) dt (f0 j) (E0 j) (e0 j))) := by
  set p : ∀ i, Pid (Fl (A i)) 3 := fun i => (q i).firstRunInit (e i) with hp
  have hz : ∀ i, (lit 0 : Fl (A i)).val = 0 := fun i => by
    show (A i).rnd ((0 : ℚ) : ℝ) = 0
    simp
  have hcp : ∀ i, Stored κ (p i) b := fun i => by
    have := hc i
    simp only [hp, Pid.firstRunInit]
    split
    · exact ⟨this.kp, this.ki, this.kd, this.antiwindup, this.alpha, this.upper, this.lower, this.resetIntegral, this.satFlag,
        this.propSat⟩
    · exact this
  have hr : ∀ i, (p i).firstRun = false := fun i => by
    simp only [hp, Pid.firstRunInit]
    split
    · rfl
    · rename_i hb; simpa using hb
  have m1 : ∀ j, (k j).ki ≠ 0 → Trk L (fun i => (p i).integral j) (fun i => I i j) (I0 j) := fun j hj => by
    refine .exact (fun i => ?_) (lI j)
    rw [(hm i).int j, if_neg hj, show (valPid (q i)).firstRun = (q i).firstRun from rfl]
    by_cases hf : (q i).firstRun = true
    · rw [if_pos hf]
      simp only [hp, Pid.firstRunInit, if_pos hf]
      exact hz i
    · rw [if_neg hf]
      simp only [hp, Pid.firstRunInit, if_neg hf]
      rfl
  have m2 : ∀ j, (k j).kd ≠ 0 → Trk L (fun i => (p i).filtered j) (fun i => f i j) (f0 j) := fun j hj => by
    refine .exact (fun i => ?_) (lf j)
    rw [(hm i).fil j, if_neg hj, show (valPid (q i)).firstRun = (q i).firstRun from rfl]
    by_cases hf : (q i).firstRun = true
    · rw [if_pos hf]
      simp only [hp, Pid.firstRunInit, if_pos hf]
      exact hz i
    · rw [if_neg hf]
      simp only [hp, Pid.firstRunInit, if_neg hf]
      rfl
  have m3 : ∀ j, Trk L (fun i => (p i).propErr j) (fun i => E i j) (E0 j) := fun j => by
    refine ⟨IsBigO.trans (IsBigO.of_bound 1 (.of_forall fun i => ?_)) (he j).1, lE j⟩
    beta_reduce
    rw [one_mul, (hm i).err j, show (valPid (q i)).firstRun = (q i).firstRun from rfl]
    by_cases hf : (q i).firstRun = true
    · simp only [if_pos hf, hp, Pid.firstRunInit, le_refl]
    · rw [if_neg hf]
      simp only [hp, Pid.firstRunInit, if_neg hf]
      simp [valPid, valV]
  -- accumulated error
  have hacc : ∀ j, (k j).ki ≠ 0 → Trk L (fun i => (p i).accumulate (δ i) (e i) j)
      (fun i => nextInt (.id ℝ) (k j) dt (I i j) (e' i j)) (nextInt (.id ℝ) (k j) dt (I0 j) (e0 j)) := by
    intro j hj
    have hn : ∀ I e, nextInt (.id ℝ) (k j) dt I e = I ⊞ (e ⊠ dt) := fun I e => by
      rw [nextInt, if_neg hj]; rfl
    have h1 : Trk L (fun i => Pid.resetAxis (p i).resetIntegral ((p i).integral j) ((p i).antiwindup j) (e i j))
        (fun i => I i j) (I0 j) := by
      refine (m1 j hj).congr ?_ (.of_forall fun _ => rfl)
      rcases hI with ⟨a, -⟩ | a
      · refine .of_forall fun i => ?_
        have : (p i).resetIntegral = false := (hcp i).resetIntegral.trans a
        simp [Pid.resetAxis, this]
      · have ta : Trk L (fun i => (p i).antiwindup j) (fun _ => b.antiwindup j) (b.antiwindup j) :=
          .stored fun i => (hcp i).antiwindup j
        filter_upwards [((m1 j hj).abs).lt_of ta (a j hj)] with i hi
        simp [Pid.resetAxis, hi.2]
    have h2 : Trk L (fun i => vadd (fun j => Pid.resetAxis (p i).resetIntegral ((p i).integral j) ((p i).antiwindup j) (e i j))
        (smulR (e i) (δ i)) j) (fun i => nextInt (.id ℝ) (k j) dt (I i j) (e' i j)) (nextInt (.id ℝ) (k j) dt (I0 j) (e0 j)) := by
      simp only [hn]
      exact h1.add ((he j).mul hdt')
    rcases hJ with ⟨-, a⟩ | a
    · refine h2.congr (.of_forall fun i => ?_) (.of_forall fun _ => rfl)
      have : Pid.nonZero (p i).antiwindup = false := by
        have hb : ∀ j, ((p i).antiwindup j).val = 0 := fun j => ((hcp i).antiwindup j).2 (by rw [a]; rfl)
        have hb' : ∀ j, beq ((p i).antiwindup j) (lit 0) = true := fun j =>
          decide_eq_true (by rw [hb j]; exact (hz i).symm)
        simp [Pid.nonZero, hb']
      simp only [Pid.accumulate, this]
      rfl
    · have hlt := abs_lt.1 (a j hj)
      have tu : Trk L (fun i => (p i).antiwindup j) (fun _ => b.antiwindup j) (b.antiwindup j) :=
        .stored fun i => (hcp i).antiwindup j
      have tl := (Trk.lit (L := L) (A := A) (-1)).mul tu
      have el : (lit (-1) : ℝ) ⊠ b.antiwindup j = -b.antiwindup j := by simp [flt]
      refine h2.congr ?_ (.of_forall fun _ => rfl)
      filter_upwards [h2.lt_of tu hlt.2, tl.lt_of h2 (by rw [el]; exact hlt.1)] with i e1 e2
      simp only [Pid.accumulate]
      split
      · have e3 : lt (vadd (fun j => Pid.resetAxis (p i).resetIntegral ((p i).integral j) ((p i).antiwindup j) (e i j))
            (smulR (e i) (δ i)) j) (smulL (lit (-1)) (p i).antiwindup j) = false := e2.2
        simp [Pid.saturateOutput, e1.2, e3]
      · rfl
  -- filtered derivative
  have hfil : ∀ j, (k j).kd ≠ 0 → Trk L (fun i => ((p i).alpha j ⊠ ((e i j ⊟ (p i).propErr j) ⊘ (δ i))) ⊞
      ((lit 1 ⊟ (p i).alpha j) ⊠ (p i).filtered j)) (fun i => nextFil (.id ℝ) (k j) dt (f i j) (E i j) (e' i j))
      (nextFil (.id ℝ) (k j) dt (f0 j) (E0 j) (e0 j)) := by
    intro j hj
    have hn : ∀ f E e, nextFil (.id ℝ) (k j) dt f E e =
        ((k j).alpha ⊠ ((e ⊟ E) ⊘ dt)) ⊞ (((lit 1 : ℝ) ⊟ (k j).alpha) ⊠ f) := fun f E e => by
      rw [nextFil, if_neg hj]; simp [flt]
    have ta : Trk L (fun i => (p i).alpha j) (fun _ => (k j).alpha) (k j).alpha :=
      .stored fun i => by rw [← h.alpha j]; exact (hcp i).alpha j
    simp only [hn]
    exact (ta.mul (((he j).sub (m3 j)).div hdt' hdt)).add (((Trk.lit 1).sub ta).mul (m2 j hj))
  have hkp : ∀ i a c, (A i).Stores κ ((p i).kpMat a c).val (Matrix.diagonal (fun j => (k j).kp) a c) := fun i => by
    rw [← h.kp]; exact (hcp i).kp
  have hki : ∀ i a c, (A i).Stores κ ((p i).kiMat a c).val (Matrix.diagonal (fun j => (k j).ki) a c) := fun i => by
    rw [← h.ki]; exact (hcp i).ki
  have hkd : ∀ i a c, (A i).Stores κ ((p i).kdMat a c).val (Matrix.diagonal (fun j => (k j).kd) a c) := fun i => by
    rw [← h.kd]; exact (hcp i).kd
  -- output
  set F : ∀ i, Vec 3 (Fl (A i)) := fun i => vadd (vmul (p i).alpha (sdiv (vsub (e i) (p i).propErr) (δ i)))
    (vmul (vsub vones (p i).alpha) (p i).filtered) with hF
  set out : ∀ i, Vec 3 (Fl (A i)) := fun i => vadd (vadd (mv (p i).kpMat (e i)) (mv (p i).kiMat ((p i).accumulate (δ i) (e i))))
    (mv (p i).kdMat (F i)) with hout
  have hsum : TrkV L out (fun i j => respond (.id ℝ) (k j) dt (I i j) (f i j) (E i j) (e' i j))
      (fun j => respond (.id ℝ) (k j) dt (I0 j) (f0 j) (E0 j) (e0 j)) := fun j =>
    ((trk_diag hkp j fun _ => he j).add
      (trk_diag hki (a := fun i j => nextInt (.id ℝ) (k j) dt (I i j) (e' i j))
        (a0 := fun j => nextInt (.id ℝ) (k j) dt (I0 j) (e0 j)) j fun hj => hacc j hj)).add
      (trk_diag hkd (a := fun i j => nextFil (.id ℝ) (k j) dt (f i j) (E i j) (e' i j))
        (a0 := fun j => nextFil (.id ℝ) (k j) dt (f0 j) (E0 j) (e0 j)) j fun hj => hfil j hj)
  have eo : ∀ i, ((q i).computeControl (δ i) (e i)).2 =
      if (p i).satFlag then Pid.saturateOutput (out i) (p i).upper (p i).lower (p i).propSat else out i := fun i => rfl
  have hst : ∀ i, Stored κ ((q i).computeControl (δ i) (e i)).1 b := fun i => by
    have := hcp i
    exact ⟨this.kp, this.ki, this.kd, this.antiwindup, this.alpha, this.upper, this.lower, this.resetIntegral, this.satFlag,
      this.propSat⟩
  refine ⟨?_, fun i => ⟨hst i, hr i, rfl⟩, hacc, hfil⟩
  simp only [eo]
  cases hsat : b.satFlag
  · have : ∀ i, (p i).satFlag = false := fun i => (hcp i).satFlag.trans hsat
    simpa only [this, Bool.false_eq_true, if_false] using hsum
  · have : ∀ i, (p i).satFlag = true := fun i => (hcp i).satFlag.trans hsat
    simp only [this, if_true]
    exact trk_saturate (fun i => (hcp i).upper) (fun i => (hcp i).lower) _ hsum
      fun j => ho hsat j

end

end Verif.Props
