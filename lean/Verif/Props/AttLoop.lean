import Verif.Spec.AttLoop
import Verif.Lemmas.AttStep
import Verif.Lemmas.DynTime
import Verif.Lemmas.DynReal
import Verif.Props.Example
import Verif.Fixture
import Mathlib.Analysis.SpecificLimits.Basic

/-!
# C111: the attitude loop in discrete time
-/

namespace Verif.Props

open Verif Flt Spec Filter Topology Example

variable [Noise ℝ]

lemma follows_ori {c : Acro ℝ} {yaw : ℝ} {f : Vec 3 ℝ} {dt : ℝ} {q q' : Quat ℝ} (h0 : 0 < dt) (h1 : dt ≤ 1 / 100)
    (h : Follows c yaw f dt q q') : q' = quatIntegrate q (c.yawAngleToAngularVelocity q.toMat yaw f).2 dt := by
  obtain ⟨n, d, d', act, ext, noise, ho, hw, hp, hq⟩ := h
  rw [Dyn.process_small_real _ _ _ _ h0 h1] at hp
  obtain ⟨c', ms, -, -, -, rfl⟩ := Dyn.singleStep_ok hp
  rw [← hq, Dyn.es_ori, ho, hw]

omit [Noise ℝ] in
lemma nonzero_of_unit {q : Quat ℝ} (h : IsUnitQ q) : NonzeroQ q := by
  intro h0
  have := (Quat.n2_eq_zero _).2 h0
  rw [(Quat.isUnitQ_iff q).1 h] at this
  exact one_ne_zero this

lemma follows_unit {c : Acro ℝ} {yaw : ℝ} {f : Vec 3 ℝ} {dt : ℝ} {q q' : Quat ℝ} (h0 : 0 < dt) (h1 : dt ≤ 1 / 100)
    (h : Follows c yaw f dt q q') (hq : IsUnitQ q) : IsUnitQ q' := by
  rw [follows_ori h0 h1 h]
  exact Quat.quatIntegrate_unit (nonzero_of_unit hq) _ _

omit [Noise ℝ] in
lemma rotationError_sine (Rd R : Mat 3 3 ℝ) : Acro.rotationError Rd R = sinePart (Rd.transpose * R) := by
  have ht : R.transpose * Rd = (Rd.transpose * R).transpose := by
    rw [Matrix.transpose_mul, Matrix.transpose_transpose]
  rw [rotationError_real, ht]
  generalize Rd.transpose * R = Q
  ext i
  fin_cases i <;> simp [sinePart, Matrix.transpose_apply] <;> ring

omit [Noise ℝ] in
lemma dotProduct_self_nonneg' (v : Vec 3 ℝ) : 0 ≤ v ⬝ᵥ v := by
  rw [dot3]; nlinarith [mul_self_nonneg (v 0), mul_self_nonneg (v 1), mul_self_nonneg (v 2)]

/-- The relative rotation after a step. -/
lemma follows_rel {c : Acro ℝ} {yaw : ℝ} {f : Vec 3 ℝ} {dt : ℝ} {q q' : Quat ℝ} {Rd : Mat 3 3 ℝ}
    (h0 : 0 < dt) (h1 : dt ≤ 1 / 100) (h : Follows c yaw f dt q q') (hq : IsUnitQ q) (hf : f ≠ 0)
    (hd : PointsTo Rd f yaw) :
    let Q := Rd.transpose * q.toMat
    let w := (dt / 2) • -c.kpRot.mulVec (sinePart Q)
    (1 + w ⬝ᵥ w) • (Rd.transpose * q'.toMat) =
      Q * ((1 + w ⬝ᵥ w) • 1 + (2 : ℝ) • skew w + (2 : ℝ) • (skew w * skew w)) := by
  intro Q w
  have := Quat.toMat_integrate hq (c.yawAngleToAngularVelocity q.toMat yaw f).2 dt
  rw [← follows_ori h0 h1 h, command_real, ← Acro.pointsTo_unique hf hd, rotationError_sine] at this
  rw [← Matrix.mul_smul, this, Matrix.mul_assoc]

/-- **C111, exact step.** With the same gain `k` on all axes, one step of the attitude loop multiplies the
attitude error by an explicit factor that depends on the error and on `k * dt` only. -/
theorem C111_step {c : Acro ℝ} {yaw : ℝ} {f : Vec 3 ℝ} {dt k : ℝ} {q q' : Quat ℝ} {Rd : Mat 3 3 ℝ}
    (h0 : 0 < dt) (h1 : dt ≤ 1 / 100) (hq : IsUnitQ q) (hf : f ≠ 0) (hd : PointsTo Rd f yaw)
    (hk : c.kpRot = k • (1 : Mat 3 3 ℝ)) (h : Follows c yaw f dt q q') :
    attError Rd q'.toMat = attError Rd q.toMat *
      ((1 - (2 - attError Rd q.toMat) * (k * dt) / 2) ^ 2 /
        (1 + (k * dt) ^ 2 * (attError Rd q.toMat * (2 - attError Rd q.toMat)) / 4)) := by
  have hQ : IsRotation (Rd.transpose * q.toMat) := hd.rotation.transpose.mul (Quat.toMat_rotation hq)
  have hr := follows_rel h0 h1 h hq hf hd
  have hw : (dt / 2) • -c.kpRot.mulVec (sinePart (Rd.transpose * q.toMat)) =
      -(k * dt / 2) • sinePart (Rd.transpose * q.toMat) := by
    rw [hk, Matrix.smul_mulVec, Matrix.one_mulVec, ← smul_neg, smul_smul, smul_neg, neg_smul]
    congr 2; ring
  dsimp only at hr
  rw [hw] at hr
  have hs := hQ.error_step (k * dt) hr
  have hn : 0 ≤ attError Rd q.toMat * (2 - attError Rd q.toMat) := by
    rw [attError, ← hQ.sine_sq]; exact dotProduct_self_nonneg' _
  rw [← mul_div_assoc, eq_div_iff (by nlinarith [mul_nonneg (sq_nonneg (k * dt)) hn])]
  exact hs

omit [Noise ℝ] in
/-- The error function is the squared distance of the matrices. -/
lemma attError_dist {Rd R : Mat 3 3 ℝ} (hd : IsRotation Rd) (h : IsRotation R) :
    ∑ i, ∑ j, (R i j - Rd i j) ^ 2 = 4 * attError Rd R := by
  have e := fun i => congrFun (congrFun hd.orth i) i
  have g := fun i => congrFun (congrFun h.orth i) i
  have e0 := e 0; have e1 := e 1; have e2 := e 2
  have g0 := g 0; have g1 := g 1; have g2 := g 2
  simp [Matrix.mul_apply, Fin.sum_univ_three] at e0 e1 e2 g0 g1 g2
  simp [attError, Matrix.trace_fin_three, Matrix.mul_apply, Fin.sum_univ_three]
  linear_combination e0 + e1 + e2 + g0 + g1 + g2

omit [Noise ℝ] in
lemma attError_nonneg {Rd R : Mat 3 3 ℝ} (hd : IsRotation Rd) (h : IsRotation R) : 0 ≤ attError Rd R := by
  have := attError_dist hd h
  have h2 : 0 ≤ ∑ i, ∑ j, (R i j - Rd i j) ^ 2 :=
    Finset.sum_nonneg fun i _ => Finset.sum_nonneg fun j _ => sq_nonneg _
  linarith

omit [Noise ℝ] in
lemma attError_le_two {Rd R : Mat 3 3 ℝ} (hd : IsRotation Rd) (h : IsRotation R) : attError Rd R ≤ 2 := by
  have hQ : IsRotation (Rd.transpose * R) := hd.transpose.mul h
  have h0 := attError_nonneg hd h
  have h1 := hQ.sine_sq
  have h2 : 0 ≤ attError Rd R * (2 - attError Rd R) := by
    rw [attError, ← h1]; exact dotProduct_self_nonneg' _
  by_contra hc
  push Not at hc
  nlinarith

/-- **C111, threshold.** With the same positive gain on all axes and an error strictly between zero and half
a turn, a step reduces the error exactly when `k * dt` times the cosine of the error angle is below two. -/
theorem C111_threshold {c : Acro ℝ} {yaw : ℝ} {f : Vec 3 ℝ} {dt k : ℝ} {q q' : Quat ℝ} {Rd : Mat 3 3 ℝ}
    (h0 : 0 < dt) (h1 : dt ≤ 1 / 100) (hq : IsUnitQ q) (hf : f ≠ 0) (hd : PointsTo Rd f yaw)
    (hk : c.kpRot = k • (1 : Mat 3 3 ℝ)) (hk0 : 0 < k) (h : Follows c yaw f dt q q')
    (he : 0 < attError Rd q.toMat) (he2 : attError Rd q.toMat < 2) :
    attError Rd q'.toMat < attError Rd q.toMat ↔ k * dt * (1 - attError Rd q.toMat) < 2 := by
  rw [C111_step h0 h1 hq hf hd hk h]
  generalize attError Rd q.toMat = e at he he2 ⊢
  have ha : 0 < k * dt := mul_pos hk0 h0
  generalize k * dt = a at ha ⊢
  have hS : 0 < e * (2 - e) := mul_pos he (by linarith)
  have hD : 0 < 1 + a ^ 2 * (e * (2 - e)) / 4 := by positivity
  rw [← mul_div_assoc, div_lt_iff₀ hD, mul_lt_mul_iff_right₀ he]
  have hu : 0 < 2 - e := by linarith
  have key : (1 + a ^ 2 * (e * (2 - e)) / 4) - (1 - (2 - e) * a / 2) ^ 2 =
      (2 - e) * a / 2 * (2 - a * (1 - e)) := by ring
  have hc : 0 < (2 - e) * a / 2 := by positivity
  constructor
  · intro hh
    have : 0 < (2 - e) * a / 2 * (2 - a * (1 - e)) := by linarith
    have := (mul_pos_iff_of_pos_left hc).1 this
    linarith
  · intro hh
    have : 0 < (2 - e) * a / 2 * (2 - a * (1 - e)) := mul_pos hc (by linarith)
    linarith

/-- One step with direction-dependent gains. -/
lemma step_shrinks {c : Acro ℝ} {yaw : ℝ} {f : Vec 3 ℝ} {dt lo hi : ℝ} {q q' : Quat ℝ} {Rd : Mat 3 3 ℝ}
    (h0 : 0 < dt) (h1 : dt ≤ 1 / 100) (hq : IsUnitQ q) (hf : f ≠ 0) (hd : PointsTo Rd f yaw)
    (hK : GainBetween c.kpRot lo hi) (hlo : 0 < lo) (hhi0 : 0 < hi) (hhi : dt * hi < 2)
    (h : Follows c yaw f dt q q') (he2 : attError Rd q.toMat < 2) :
    attError Rd q'.toMat ≤ attError Rd q.toMat * shrink lo hi dt (attError Rd q.toMat) := by
  have hQ : IsRotation (Rd.transpose * q.toMat) := hd.rotation.transpose.mul (Quat.toMat_rotation hq)
  have hr := follows_rel h0 h1 h hq hf hd
  dsimp only at hr
  have ht := hQ.error_turn _ hr
  have hS := hQ.sine_sq
  change sinePart _ ⬝ᵥ sinePart _ = attError Rd q.toMat * (2 - attError Rd q.toMat) at hS
  have he0 := attError_nonneg hd.rotation (Quat.toMat_rotation hq)
  have hlow := hK.low (sinePart (Rd.transpose * q.toMat))
  have hhigh := hK.high (sinePart (Rd.transpose * q.toMat))
  change (2 - attError Rd q.toMat) * ((1 + _) * (attError Rd q.toMat - attError Rd q'.toMat)) =
    -2 * (2 - attError Rd q.toMat) * _ - (2 - attError Rd q.toMat) ^ 2 * _ + _ at ht
  simp only [smul_dotProduct, dotProduct_smul, smul_eq_mul, neg_dotProduct, dotProduct_neg, mul_neg, neg_neg] at ht
  rw [hS] at hlow
  have hcs : (sinePart (Rd.transpose * q.toMat) ⬝ᵥ c.kpRot.mulVec (sinePart (Rd.transpose * q.toMat))) ^ 2 ≤
      (sinePart (Rd.transpose * q.toMat) ⬝ᵥ sinePart (Rd.transpose * q.toMat)) *
      (c.kpRot.mulVec (sinePart (Rd.transpose * q.toMat)) ⬝ᵥ
        c.kpRot.mulVec (sinePart (Rd.transpose * q.toMat))) := cauchy _ _
  rw [hS] at hcs
  have hWn := dotProduct_self_nonneg' (c.kpRot.mulVec (sinePart (Rd.transpose * q.toMat)))
  generalize c.kpRot.mulVec (sinePart (Rd.transpose * q.toMat)) ⬝ᵥ
    c.kpRot.mulVec (sinePart (Rd.transpose * q.toMat)) = W at *
  generalize sinePart (Rd.transpose * q.toMat) ⬝ᵥ c.kpRot.mulVec (sinePart (Rd.transpose * q.toMat)) = P at *
  generalize attError Rd q.toMat = e at *
  generalize attError Rd q'.toMat = e' at *
  have hu : 0 < 2 - e := by linarith
  have hS1 : e * (2 - e) ≤ 1 := by nlinarith [sq_nonneg (e - 1)]
  have hS0 : 0 ≤ e * (2 - e) := mul_nonneg he0 hu.le
  have hP0 : 0 ≤ P := le_trans (mul_nonneg hlo.le hS0) hlow
  have hPhi : P ≤ hi := by
    by_contra hc
    push Not at hc
    have h2 : P ^ 2 ≤ 1 * (hi * P) := hcs.trans (mul_le_mul hS1 hhigh hWn zero_le_one)
    nlinarith
  have hW : W ≤ hi ^ 2 := by nlinarith
  have hV : dt / 2 * (dt / 2 * W) ≤ 1 := by
    have : dt / 2 * (dt / 2 * W) ≤ (dt * hi / 2) ^ 2 := by
      have := mul_le_mul_of_nonneg_left hW (by positivity : 0 ≤ dt ^ 2 / 4)
      linarith [this, (by ring : dt ^ 2 / 4 * W = dt / 2 * (dt / 2 * W)),
        (by ring : dt ^ 2 / 4 * hi ^ 2 = (dt * hi / 2) ^ 2)]
    have h3 : dt * hi / 2 < 1 := by linarith
    have h4 : 0 < dt * hi / 2 := by positivity
    nlinarith
  have hV0 : 0 ≤ dt / 2 * (dt / 2 * W) := by positivity
  have hdec : dt * P * (1 - dt * hi / 2) ≤ (1 + dt / 2 * (dt / 2 * W)) * (e - e') := by
    refine le_of_mul_le_mul_left ?_ hu
    rw [ht]
    have hWhi : (2 - e) ^ 2 * (dt / 2 * (dt / 2 * W)) ≤ (2 - e) * (dt * P * (dt * hi / 2)) := by
      have g1 : (2 - e) * (dt / 2 * (dt / 2 * W)) ≤ 2 * (dt / 2 * (dt / 2 * (hi * P))) := by
        refine mul_le_mul (by linarith) ?_ hV0 (by norm_num)
        have := mul_le_mul_of_nonneg_left hhigh (by positivity : 0 ≤ dt / 2 * (dt / 2))
        linarith
      have := mul_le_mul_of_nonneg_left g1 hu.le
      linarith [this]
    nlinarith [sq_nonneg (dt / 2 * P)]
  have hX : dt * lo * (e * (2 - e)) * (1 - dt * hi / 2) ≤ dt * P * (1 - dt * hi / 2) := by
    refine mul_le_mul_of_nonneg_right ?_ (by linarith)
    nlinarith
  have hX0 : 0 ≤ dt * lo * (e * (2 - e)) * (1 - dt * hi / 2) := by
    have : 0 ≤ 1 - dt * hi / 2 := by linarith
    positivity
  have hd0 : 0 ≤ e - e' := by
    by_contra hc
    push Not at hc
    have : (1 + dt / 2 * (dt / 2 * W)) * (e - e') < 0 := mul_neg_of_pos_of_neg (by linarith) hc
    linarith
  have : dt * lo * (e * (2 - e)) * (1 - dt * hi / 2) ≤ 2 * (e - e') :=
    (hX.trans hdec).trans (mul_le_mul_of_nonneg_right (by linarith) hd0)
  unfold shrink
  linarith [this, (by ring : e * (1 - dt * lo * (2 - e) * (1 - dt * hi / 2) / 2) =
    e - dt * lo * (e * (2 - e)) * (1 - dt * hi / 2) / 2)]

/-- **C111, convergence.** If the gains lie between `lo > 0` and `hi` in every direction and `dt * hi < 2`,
then from every attitude not exactly half a turn away from the demanded one the attitude error decreases at
least geometrically with an explicit factor, and the attitude converges to the demanded one. -/
theorem C111_converges {c : Acro ℝ} {yaw : ℝ} {f : Vec 3 ℝ} {dt lo hi : ℝ} {q : ℕ → Quat ℝ} {Rd : Mat 3 3 ℝ}
    (h0 : 0 < dt) (h1 : dt ≤ 1 / 100) (hq : IsUnitQ (q 0)) (hf : f ≠ 0) (hd : PointsTo Rd f yaw)
    (hK : GainBetween c.kpRot lo hi) (hlo : 0 < lo) (hhi : dt * hi < 2)
    (h : ∀ j, Follows c yaw f dt (q j) (q (j + 1))) (he : attError Rd (q 0).toMat < 2) :
    (∀ j, attError Rd (q j).toMat ≤
      attError Rd (q 0).toMat * shrink lo hi dt (attError Rd (q 0).toMat) ^ j) ∧
    shrink lo hi dt (attError Rd (q 0).toMat) < 1 ∧
    ∀ i k, Tendsto (fun j => (q j).toMat i k) atTop (𝓝 (Rd i k)) := by
  have hhi0 : 0 < hi := by
    have a := hK.low ![1, 0, 0]
    have b := hK.high ![1, 0, 0]
    have b0 := dotProduct_self_nonneg' (c.kpRot.mulVec ![1, 0, 0])
    have e1 : (![1, 0, 0] : Vec 3 ℝ) ⬝ᵥ ![1, 0, 0] = 1 := by simp
    have b1 := cauchy ![1, 0, 0] (c.kpRot.mulVec ![1, 0, 0])
    rw [e1] at a b1
    by_contra hc
    push Not at hc
    nlinarith
  have hu : ∀ j, IsUnitQ (q j) := fun j => by
    induction j with
    | zero => exact hq
    | succ j ih => exact follows_unit h0 h1 (h j) ih
  have hn : ∀ j, 0 ≤ attError Rd (q j).toMat := fun j =>
    attError_nonneg hd.rotation (Quat.toMat_rotation (hu j))
  have hmono : ∀ {x y : ℝ}, x ≤ y → shrink lo hi dt x ≤ shrink lo hi dt y := fun {x y} hxy => by
    have hg : 0 ≤ dt * lo * (1 - dt * hi / 2) / 2 := by
      have : 0 ≤ 1 - dt * hi / 2 := by linarith
      positivity
    unfold shrink
    nlinarith
  have hlt : ∀ {x : ℝ}, x < 2 → shrink lo hi dt x < 1 := fun {x} hx => by
    have : 0 < dt * lo * (2 - x) * (1 - dt * hi / 2) / 2 := by
      have a : 0 < 1 - dt * hi / 2 := by linarith
      have b : 0 < 2 - x := by linarith
      positivity
    unfold shrink
    linarith
  have hbelow : ∀ j, attError Rd (q j).toMat ≤ attError Rd (q 0).toMat := fun j => by
    induction j with
    | zero => exact le_rfl
    | succ j ih =>
      have hs := step_shrinks h0 h1 (hu j) hf hd hK hlo hhi0 hhi (h j) (by linarith)
      have := hlt (x := attError Rd (q j).toMat) (by linarith)
      have := mul_le_mul_of_nonneg_left this.le (hn j)
      linarith
  have hstep : ∀ j, attError Rd (q (j + 1)).toMat ≤
      attError Rd (q j).toMat * shrink lo hi dt (attError Rd (q 0).toMat) := fun j =>
    (step_shrinks h0 h1 (hu j) hf hd hK hlo hhi0 hhi (h j) (by linarith [hbelow j])).trans
      (mul_le_mul_of_nonneg_left (hmono (hbelow j)) (hn j))
  have hgeo : ∀ j, attError Rd (q j).toMat ≤
      attError Rd (q 0).toMat * shrink lo hi dt (attError Rd (q 0).toMat) ^ j := by
    intro j
    rcases (hn 0).eq_or_lt with hz | hz
    · rw [← hz, zero_mul]
      exact (hbelow j).trans hz.ge
    · have hr : 0 ≤ shrink lo hi dt (attError Rd (q 0).toMat) := by
        have := (hn 1).trans (hstep 0)
        exact (mul_nonneg_iff_of_pos_left hz).1 this
      induction j with
      | zero => simp
      | succ j ih =>
        rw [pow_succ, ← mul_assoc]
        exact (hstep j).trans (mul_le_mul_of_nonneg_right ih hr)
  have hzero : Tendsto (fun j => attError Rd (q j).toMat) atTop (𝓝 0) := by
    rcases (hn 0).eq_or_lt with hz | hz
    · have : (fun j => attError Rd (q j).toMat) = fun _ => 0 :=
        funext fun j => le_antisymm ((hbelow j).trans hz.ge) (hn j)
      rw [this]; exact tendsto_const_nhds
    · have hr : 0 ≤ shrink lo hi dt (attError Rd (q 0).toMat) := by
        have := (hn 1).trans (hstep 0)
        exact (mul_nonneg_iff_of_pos_left hz).1 this
      refine squeeze_zero hn hgeo ?_
      have := (tendsto_pow_atTop_nhds_zero_of_lt_one hr (hlt he)).const_mul (attError Rd (q 0).toMat)
      rwa [mul_zero] at this
  refine ⟨hgeo, hlt he, ?_⟩
  intro i k
  rw [tendsto_iff_dist_tendsto_zero]
  have hb : ∀ j, dist ((q j).toMat i k) (Rd i k) ≤ √(4 * attError Rd (q j).toMat) := fun j => by
    rw [Real.dist_eq, ← attError_dist hd.rotation (Quat.toMat_rotation (hu j))]
    refine Real.abs_le_sqrt ?_
    refine le_trans ?_ (Finset.single_le_sum (f := fun i => ∑ k, ((q j).toMat i k - Rd i k) ^ 2)
      (fun i _ => Finset.sum_nonneg fun k _ => sq_nonneg _) (Finset.mem_univ i))
    exact Finset.single_le_sum (f := fun k => ((q j).toMat i k - Rd i k) ^ 2)
      (fun k _ => sq_nonneg _) (Finset.mem_univ k)
  refine squeeze_zero (fun j => dist_nonneg) hb ?_
  have := (hzero.const_mul 4).sqrt
  simpa using this

/-- **C111, the excluded attitudes.** An attitude half a turn away from the demanded one does not move at all,
whatever the gains. -/
theorem C111_half_turn {c : Acro ℝ} {yaw : ℝ} {f : Vec 3 ℝ} {dt : ℝ} {q q' : Quat ℝ} {Rd : Mat 3 3 ℝ}
    (h0 : 0 < dt) (h1 : dt ≤ 1 / 100) (hq : IsUnitQ q) (hf : f ≠ 0) (hd : PointsTo Rd f yaw)
    (h : Follows c yaw f dt q q') (he : attError Rd q.toMat = 2) : q' = q := by
  have hQ : IsRotation (Rd.transpose * q.toMat) := hd.rotation.transpose.mul (Quat.toMat_rotation hq)
  have hs := hQ.sine_sq
  rw [show (1 - Rd.transpose * q.toMat).trace / 2 = 2 from he] at hs
  have hz : sinePart (Rd.transpose * q.toMat) = 0 := dotProduct_self_eq_zero.1 (by rw [hs]; norm_num)
  have := follows_ori h0 h1 h
  rw [command_real, ← Acro.pointsTo_unique hf hd, rotationError_sine, hz] at this
  rw [this, quatIntegrate, Quat.integrate_eq]
  simp [Quat.normalized_of_unit hq]

omit [Noise ℝ] in
lemma gainBetween_diag {a b e lo hi : ℝ} (h0 : 0 ≤ lo) (ha : lo ≤ a ∧ a ≤ hi) (hb : lo ≤ b ∧ b ≤ hi)
    (he : lo ≤ e ∧ e ≤ hi) : GainBetween (diag3 ![a, b, e]) lo hi := by
  have key : ∀ v : Vec 3 ℝ, (diag3 ![a, b, e]).mulVec v = ![a * v 0, b * v 1, e * v 2] := by
    intro v; ext i; fin_cases i <;> simp [diag3, Matrix.mulVec, dotProduct, flt]
  constructor <;> intro v <;> rw [key] <;> simp only [dot3] <;> simp
  · nlinarith [mul_nonneg (sub_nonneg.2 ha.1) (sq_nonneg (v 0)), mul_nonneg (sub_nonneg.2 hb.1) (sq_nonneg (v 1)),
      mul_nonneg (sub_nonneg.2 he.1) (sq_nonneg (v 2))]
  · have t : ∀ x y : ℝ, lo ≤ x ∧ x ≤ hi → x * y * (x * y) ≤ hi * (y * (x * y)) := fun x y hx => by
      have := mul_nonneg (mul_nonneg (h0.trans hx.1) (sub_nonneg.2 hx.2)) (sq_nonneg y)
      nlinarith
    have := t a (v 0) ha
    have := t b (v 1) hb
    have := t e (v 2) he
    linarith

/-- **C111, shipped gains.** With the attitude gains of the example program, any integration step works. -/
theorem C111_shipped {p : SimParams ℝ 4} (hp : codeParams = some p) {yaw : ℝ} {f : Vec 3 ℝ} {dt : ℝ}
    {q : ℕ → Quat ℝ} {Rd : Mat 3 3 ℝ} (h0 : 0 < dt) (h1 : dt ≤ 1 / 100) (hq : IsUnitQ (q 0)) (hf : f ≠ 0)
    (hd : PointsTo Rd f yaw) (h : ∀ j, Follows (Acro.mk' p.ctl.acro) yaw f dt (q j) (q (j + 1)))
    (he : attError Rd (q 0).toMat < 2) :
    (∀ j, attError Rd (q j).toMat ≤
      attError Rd (q 0).toMat * (1 - 4 * dt * (2 - attError Rd (q 0).toMat) * (1 - 10 * dt)) ^ j) ∧
    ∀ i k, Tendsto (fun j => (q j).toMat i k) atTop (𝓝 (Rd i k)) := by
  have hK : GainBetween (Acro.mk' p.ctl.acro).kpRot 8 20 := by
    simp only [codeParams, Option.map_eq_some_iff] at hp
    obtain ⟨alloc, -, rfl⟩ := hp
    have := gainBetween_diag (a := 20) (b := 20) (e := 8) (lo := 8) (hi := 20) (by norm_num) (by norm_num)
      (by norm_num) (by norm_num)
    simpa [Acro.mk', flt] using this
  obtain ⟨a, -, b⟩ := C111_converges h0 h1 hq hf hd hK (by norm_num) (by linarith) h he
  refine ⟨fun j => (a j).trans_eq ?_, b⟩
  congr 2
  unfold shrink
  ring

/-- A vehicle that follows the commands exists for every law, demand and attitude. -/
lemma follows_exists (c : Acro ℝ) (yaw : ℝ) (f : Vec 3 ℝ) {dt : ℝ} (h0 : 0 < dt) (h1 : dt ≤ 1 / 100) (q : Quat ℝ) :
    ∃ q', Follows c yaw f dt q q' := by
  let d : Dyn ℝ 4 := { Fixture.dyn with state := { (State.default : State ℝ 4) with
    ori := q, angVel := (c.yawAngleToAngularVelocity q.toMat yaw f).2 } }
  exact ⟨_, 4, d, _, 0, 0, false, rfl, rfl, Fixture.process_ok d rfl _ _ h0 h1 _ _, rfl⟩

lemma follows_chain (c : Acro ℝ) (yaw : ℝ) (f : Vec 3 ℝ) {dt : ℝ} (h0 : 0 < dt) (h1 : dt ≤ 1 / 100) (q0 : Quat ℝ) :
    ∃ q : ℕ → Quat ℝ, q 0 = q0 ∧ ∀ j, Follows c yaw f dt (q j) (q (j + 1)) := by
  choose g hg using fun q => follows_exists c yaw f h0 h1 q
  exact ⟨fun j => g^[j] q0, rfl, fun j => by simpa only [Function.iterate_succ_apply'] using hg _⟩

/-- Non-vacuity of C111: the example gains, hover thrust, initial attitude a quarter turn of yaw off. -/
example : ∃ (p : SimParams ℝ 4) (q : ℕ → Quat ℝ) (Rd : Mat 3 3 ℝ), codeParams = some p ∧ IsUnitQ (q 0) ∧
    PointsTo Rd ![0, 0, 10] 0 ∧ (∀ j, Follows (Acro.mk' p.ctl.acro) 0 ![0, 0, 10] (1 / 1000) (q j) (q (j + 1))) ∧
    attError Rd (q 0).toMat = 1 := by
  obtain ⟨p, hp, -⟩ := codeParams_ok
  obtain ⟨q, h0, hf⟩ := follows_chain (Acro.mk' p.ctl.acro) 0 ![0, 0, 10] (dt := 1 / 1000) (by norm_num) (by norm_num)
    ⟨√2 / 2, 0, 0, √2 / 2⟩
  have h2 : √2 * √2 = 2 := Real.mul_self_sqrt (by norm_num)
  refine ⟨p, q, 1, hp, ?_, pointsTo_one, hf, ?_⟩
  · rw [h0]; simp only [IsUnitQ]; nlinarith
  · rw [h0, Quat.toMat_real]
    simp [attError, Matrix.trace_fin_three]
    nlinarith

/-- Non-vacuity of the exact step and of its threshold: gain 300 and the largest step overshoot so far that
an attitude error grows. -/
example : ∃ (c : Acro ℝ) (q q' : Quat ℝ) (Rd : Mat 3 3 ℝ), c.kpRot = (300 : ℝ) • (1 : Mat 3 3 ℝ) ∧ IsUnitQ q ∧
    PointsTo Rd ![0, 0, 10] 0 ∧ Follows c 0 ![0, 0, 10] (1 / 100) q q' ∧
    0 < attError Rd q.toMat ∧ attError Rd q.toMat < attError Rd q'.toMat := by
  let c : Acro ℝ := ⟨(300 : ℝ) • 1, 1, 0, 0, 0⟩
  let q : Quat ℝ := ⟨12 / 13, 0, 0, 5 / 13⟩
  obtain ⟨q', hq'⟩ := follows_exists c 0 ![0, 0, 10] (dt := 1 / 100) (by norm_num) le_rfl q
  have hu : IsUnitQ q := by simp only [IsUnitQ, q]; norm_num
  have he : attError 1 q.toMat = 50 / 169 := by
    rw [Quat.toMat_real]
    simp [attError, Matrix.trace_fin_three, q]
    norm_num
  have hne : (![0, 0, 10] : Vec 3 ℝ) ≠ 0 := fun h => by simpa using congrFun h 2
  refine ⟨c, q, q', 1, rfl, hu, pointsTo_one, hq', by rw [he]; norm_num, ?_⟩
  rw [C111_step (by norm_num) le_rfl hu hne pointsTo_one (k := 300) rfl hq', he]
  norm_num

end Verif.Props
