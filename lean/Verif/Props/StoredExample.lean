import Verif.Props.Stored
import Verif.Props.GridErrorExample
import Verif.Props.Turn
import Mathlib.Analysis.Real.Pi.Irrational

/-!
# C124: cases

The shear flow `(0, sin x)` in files (`GridErrorExample`) with seeds stored as 16-bit integers,
and a uniform flow in space with seeds given as integers.
-/

namespace Verif

open Matrix

/-- A rational number is not a zero of the cosine. -/
theorem abs_sin_rat_lt (q : ℚ) : |Real.sin q| < 1 := by
  refine lt_of_le_of_ne (Real.abs_sin_le_one _) fun h => ?_
  have hc : Real.cos q = 0 := by
    have h1 : Real.sin q ^ 2 = 1 := by rw [← sq_abs, h, one_pow]
    have := Real.sin_sq_add_cos_sq (q : ℝ)
    exact pow_eq_zero_iff (two_ne_zero) |>.1 (by linarith)
  obtain ⟨k, hk⟩ := Real.cos_eq_zero_iff.1 hc
  have h2 : (2 * k + 1 : ℚ) ≠ 0 := by
    have : (2 * k + 1 : ℤ) ≠ 0 := by omega
    exact_mod_cast this
  have h2' : (2 * (k : ℝ) + 1) ≠ 0 := by exact_mod_cast h2
  refine irrational_pi ⟨2 * q / (2 * k + 1), ?_⟩
  push_cast
  rw [hk]
  field_simp

/-- The shear flow with seeds stored as 16-bit integers. -/
noncomputable def shortStorage : Storage ℝ :=
  ⟨plainRules, fun _ _ => .signed .w16, .signed .w16, true⟩

/-- The hypotheses of the theorems on files hold for the files of C84, whose run with `float64`
seeds is analysed there; with integer seeds it reports 0. -/
example {k : Kind} (hk : k ≠ .rk4) :
    ((⟨.file shearSource, .highPerf (HighPerf.fresh [801, 801]), .fresh k⟩ : Solver ℝ).runOf
      shortStorage shearEnv false none).result = .ok (some [.fin 0]) := by
  obtain ⟨seed, P, s1, s2, s3, s4⟩ := shear_seeds
  have e : ∀ b c, seed.get [(b : Fin 4).1 * 1 + 0, (c : Fin 2).1] = cross2 0 1 b c := fun b c =>
    congrFun (s4 b) c
  have e00 := e 0 0
  have e01 := e 0 1
  have e10 := e 1 0
  have e11 := e 1 1
  have e20 := e 2 0
  have e21 := e 2 1
  have e30 := e 3 0
  have e31 := e 3 1
  simp [cross2] at e00 e01 e10 e11 e20 e21 e30 e31
  refine C124_files_zero_fails (sg := shortStorage) rfl (env := shearEnv) ⟨rfl, rfl, rfl⟩ (.inl rfl)
    (s := shearSource) (v := fun _ => shear) (t0 := 0) (nx := 801) (ny := 801) shear_samples
    (t := .signed .w16) ?_ (by simp) (by simp [DType.hi, Width.bits]) (by simp [DType.hi, Width.bits])
    ?_ (le_refl 2) (by simp [shearSource]) hk (N := 1) s1 s2 s3 ?_ ?_ ?_ false
  · simp [Source.seedType, Storage.seedType, shortStorage, shearEnv, shearSource, shearFiles,
      DType.promote]
    rfl
  · intro j _ a _ b _ c
    fin_cases c
    · simp [shear]
    · have := abs_sin_rat_lt (-4 + a * (1 / 100))
      push_cast at this
      simpa [shear] using this
  · intro r hr c hc
    have l : r < 4 := hr
    have lo : (DType.signed .w16).lo = -32768 := by simp [DType.lo, Width.bits]
    have hi : (DType.signed .w16).hi = 32767 := by simp [DType.hi, Width.bits]
    rw [lo, hi]
    interval_cases r <;> interval_cases c
    · exact ⟨-1, by norm_num, by norm_num, by simp [e00]⟩
    · exact ⟨0, by norm_num, by norm_num, by simp [e01]⟩
    · exact ⟨1, by norm_num, by norm_num, by simp [e10]⟩
    · exact ⟨0, by norm_num, by norm_num, by simp [e11]⟩
    · exact ⟨0, by norm_num, by norm_num, by simp [e20]⟩
    · exact ⟨1, by norm_num, by norm_num, by simp [e21]⟩
    · exact ⟨0, by norm_num, by norm_num, by simp [e30]⟩
    · exact ⟨-1, by norm_num, by norm_num, by simp [e31]⟩
  · intro i hi
    have hi : i = 0 := by omega
    subst hi
    simp [AxisAligned2, pt, e00, e01, e10, e11, e20, e21, e30, e31]
    norm_num
  · intro r hr
    have l : r < 4 := hr
    interval_cases r <;> simp [OnAxis, e00, e01, e10, e11, e20, e21, e30, e31] <;> norm_num

/-- One block stored as `float64`. -/
example (k : Kind) (queue : Bool) :
    (⟨.file shearSource, .highPerf (HighPerf.fresh [801, 801]), .fresh k⟩ : Solver ℝ).runOf
      { shortStorage with inFile := fun _ b => if b = "top" then .float64 else .signed .w16 } shearEnv
      queue none =
    (⟨.file shearSource, .highPerf (HighPerf.fresh [801, 801]), .fresh k⟩ : Solver ℝ).run shearEnv
      queue none :=
  C124_one_block_partial _ (.inl ⟨"top", by simp, by simp⟩) _ _ _ _

/-- A uniform flow in space. -/
example {k : Kind} (hk : k ≠ .rk4) : ∃ P : Particles ℝ, mkParticles crossSeed3 = .ok P ∧
    ((⟨.analytical ⟨P, 1, [0, 1]⟩,
      .analytical (.fresh (some fun _ => sourceOf 3 fun x => ![0, x 0 / 2, 1 / 2])), .fresh k⟩ :
        Solver ℝ).runOf intStorage realEnv true none).result = .ok (some [.fin 0]) := by
  obtain ⟨P, hP, -⟩ := mkParticles_3d (show crossSeed3.shape = [6 * 1, 3] from rfl)
  refine ⟨P, hP, C124_zero_3d_fails (sg := intStorage) rfl rfl (by simp [intStorage]) realEnv_ok
    (s := ⟨P, 1, [0, 1]⟩) hk (N := 1) rfl hP ?_ ?_ (sourceOf_pointwise _ _ _) ?_ (le_refl 2) (by simp)
    true⟩
  · intro i hi
    have hi : i = 0 := by omega
    subst hi
    simp [AxisAligned3, pt, crossSeed3]
    norm_num
  · intro r hr c hc
    have l : r < 6 := hr
    have lo : (DType.signed .w64).lo ≤ -1 := by simp [DType.lo, Width.bits]
    have hi : 1 ≤ (DType.signed .w64).hi := by simp [DType.hi, Width.bits]
    have w : ∀ y : ℝ, (y = -1 ∨ y = 1 ∨ y = 0) →
        ∃ z : ℤ, (DType.signed .w64).lo ≤ z ∧ z ≤ (DType.signed .w64).hi ∧ y = z := by
      rintro y (rfl | rfl | rfl)
      · exact ⟨-1, lo, by omega, by simp⟩
      · exact ⟨1, by omega, hi, by simp⟩
      · exact ⟨0, by omega, by omega, by simp⟩
    apply w
    simp only [crossSeed3]
    split
    · exact .inl rfl
    · split
      · exact .inr (.inl rfl)
      · exact .inr (.inr rfl)
  · intro r hr c
    have l : r < 6 := hr
    fin_cases c
    · simp
    · interval_cases r <;> simp [rowOf, crossSeed3] <;> norm_num [abs_lt]
    · norm_num [abs_lt]

end Verif
