import Verif.Props.TwoRuns
import Verif.Props.CalmExample

/-!
# C143: cases
-/

namespace Verif

open Matrix Set

theorem ripple_slope (x y : ℝ) : |ripple x - ripple y| ≤ 1 / 1000 * |x - y| := by
  have e : ripple x - ripple y = (Real.sin x - Real.sin y) / 1000 := by unfold ripple; ring
  rw [e, abs_div, abs_of_pos (by norm_num : (0 : ℝ) < 1000)]
  have := Real.abs_sin_sub_sin_le x y
  linarith

theorem fieldNear_abs {l T b c e : ℝ} {v' : FVal} (hT : 0 < T) (he : 0 ≤ e) (hl : |l| ≤ c)
    (hc : b < 1 - c * T) (hb : 0 ≤ b) (h2 : b / (1 - c * T - b) ≤ e * T)
    (h : FieldNear (.fin l) v' T b) : ∃ l', v' = .fin l' ∧ |l' - l| ≤ e := by
  have low : 1 - c * T ≤ Real.exp (T * l) := by
    have h3 := Real.add_one_le_exp (T * l)
    have := (abs_le.1 hl).1
    nlinarith
  obtain ⟨l', e1, e2⟩ := h.1 l rfl (by linarith)
  refine ⟨l', e1, e2.trans ?_⟩
  rw [one_div, ← div_eq_inv_mul, div_le_iff₀ hT]
  refine le_trans ?_ h2
  exact div_le_div_of_nonneg_left hb (by linarith) (by linarith)

/-- The files of the case of C142 and those of the uniform flow: the values differ by at most 1/20. -/
example (queue queue' : Bool) (k : Kind) : ∃ l l' : ℝ,
    ((⟨.file (cellSource 20 3), .highPerf (HighPerf.fresh [161, 161]), .fresh k⟩ :
      Solver ℝ).run { realEnv with fs := cellFiles ripple 20 0 (1 / 2) } queue none).result =
        .ok (some [.fin l]) ∧
    ((⟨.file (cellSource 20 3), .highPerf (HighPerf.fresh [161, 161]), .fresh k⟩ :
      Solver ℝ).run { realEnv with fs := cellFiles (fun _ => 1) 20 0 (1 / 2) } queue' none).result =
        .ok (some [.fin l']) ∧ |l' - l| ≤ 1 / 20 := by
  obtain ⟨l, r1, r2⟩ := ripple_value queue k (δ := 1 / 2) (by norm_num) (by norm_num)
  obtain ⟨seed, P, s1, s2, s3, s4⟩ := cell_seeds ripple 20 0 (1 / 2)
  have s3' : readSeedParticles (cellFiles (fun _ => 1) 20 0 (1 / 2)) "p" = .ok P := s3
  have hd := cell_samples_of ripple 0 (1 / 2) 0 (q := 20) 3 (by norm_num) (by norm_num)
  have hd' := cell_samples_of (fun _ => 1) 0 (1 / 2) 0 (q := 20) 3 (by norm_num) (by norm_num)
  have ht : (cellSource 20 3).timestep = 1 / 20 := by simp [cellSource]
  have hl : (cellSource 20 3).snapshotFiles.length = 3 := by simp [cellSource]
  have habs : |(1 / 20 : ℝ)| = 1 / 20 := abs_of_pos (by norm_num)
  obtain ⟨Λ, Λ', h1, h2, h3⟩ := C143_files_2d
    (env := { realEnv with fs := cellFiles ripple 20 0 (1 / 2) })
    (env' := { realEnv with fs := cellFiles (fun _ => 1) 20 0 (1 / 2) })
    ⟨rfl, rfl, rfl⟩ ⟨rfl, rfl, rfl⟩ (.inl rfl) (.inl rfl) queue queue' k hd hd' hl hl ht ht
    (a := 1 / 1000) (B := 2) (η := 1 / 1000) (by norm_num)
    (fun j _ a _ b _ c => by
      fin_cases c
      · simp [parallel]
      · refine ⟨fun _ => ?_, fun _ => by simp [parallel]⟩
        have := ripple_slope (-4 + ((a : ℝ) + 1) * (1 / 20)) (-4 + a * (1 / 20))
        have e : (-4 + ((a : ℝ) + 1) * (1 / 20)) - (-4 + a * (1 / 20)) = 1 / 20 := by ring
        rw [e, habs] at this
        simpa [parallel] using this)
    (fun j _ a _ b _ => by
      rw [pi_norm_le_iff_of_nonneg (by norm_num)]
      intro c
      fin_cases c
      · simp [parallel]
      · exact ripple_near _)
    (fun j _ a _ b _ => by
      rw [pi_norm_le_iff_of_nonneg (by norm_num)]
      intro c
      fin_cases c
      · simp [parallel]
      · exact ripple_le _)
    (fun j _ a _ b _ => by
      rw [pi_norm_le_iff_of_nonneg (by norm_num)]
      intro c
      fin_cases c <;> simp [parallel])
    s1 s2 s3 s3' (fun i hi => by
      obtain rfl : i = 0 := by omega
      have e : ∀ b : Fin 4, ∀ c : Fin 2, pt seed 1 b 0 c = cross2 ![0, 0] (1 / 2) b c := fun b c =>
        congrFun (congrFun s4 b) c
      have := e 0 0; have := e 0 1; have := e 1 0; have := e 1 1
      have := e 2 0; have := e 2 1; have := e 3 0; have := e 3 1
      clear s3 s3' hd hd' s4
      simp_all [AxisAligned2, cross2]
      norm_num)
    (fun i hi b z hz => by
      obtain rfl : i = 0 := by omega
      rw [s4, habs] at hz
      have c0 : |cross2 ![0, 0] (1 / 2) b 0| ≤ 1 := by
        rw [abs_le]; fin_cases b <;> simp [cross2] <;> constructor <;> linarith
      have c1 : |cross2 ![0, 0] (1 / 2) b 1| ≤ 1 := by
        rw [abs_le]; fin_cases b <;> simp [cross2] <;> constructor <;> linarith
      have z0 := (norm_le_pi_norm (z - cross2 ![0, 0] (1 / 2) b) 0).trans hz
      have z1 := (norm_le_pi_norm (z - cross2 ![0, 0] (1 / 2) b) 1).trans hz
      rw [Pi.sub_apply, Real.norm_eq_abs, abs_le] at z0 z1
      rw [abs_le] at c0 c1
      norm_num at z0 z1
      exact ⟨cell_axis (q := 20) (by norm_num) (by linarith [z0.1, c0.1]) (by linarith [z0.2, c0.2]),
        cell_axis (q := 20) (by norm_num) (by linarith [z1.1, c1.1]) (by linarith [z1.2, c1.2])⟩)
    (by norm_num) (by norm_num)
  have e : Λ 0 = .fin l := by
    have h1' := h1.symm.trans r1
    simpa using h1'
  have w1 : groupOf seed 4 1 2 0 1 0 - groupOf seed 4 1 2 0 0 0 = 1 := by
    simp [s4, cross2]; norm_num
  have w2 : groupOf seed 4 1 2 0 2 1 - groupOf seed 4 1 2 0 3 1 = 1 := by
    simp [s4, cross2]; norm_num
  have h4 := h3 0 one_pos
  rw [e, w1, w2, habs] at h4
  obtain ⟨l', e1, e2⟩ := fieldNear_abs (c := 1) (e := 1 / 20) (by norm_num) (by norm_num) r2
    (by cases k <;> norm_num [growth]) (by cases k <;> norm_num [growth])
    (by cases k <;> norm_num [growth]) h4
  refine ⟨l, l', r1, ?_, e2⟩
  rw [← e1]
  exact h2

/-- In three dimensions: at most 1 apart. -/
example (queue queue' : Bool) (k : Kind) : ∃ l l' : ℝ,
    ((⟨.file shearSource, .highPerf (HighPerf.fresh [801, 801, 801]), .fresh k⟩ :
      Solver ℝ).run { realEnv with fs := lineFiles3 ripple } queue none).result =
        .ok (some [.fin l]) ∧
    ((⟨.file shearSource, .highPerf (HighPerf.fresh [801, 801, 801]), .fresh k⟩ :
      Solver ℝ).run { realEnv with fs := lineFiles3 fun _ => 1 } queue' none).result =
        .ok (some [.fin l']) ∧ |l' - l| ≤ 1 := by
  obtain ⟨l, r1, r2⟩ := ripple3_value queue k
  obtain ⟨seed, P, s1, s2, s3, s4⟩ := shear3_seeds
  have ht : shearSource.timestep = 1 / 100 := rfl
  have hl : shearSource.snapshotFiles.length = 2 := rfl
  have habs : |(1 / 100 : ℝ)| = 1 / 100 := abs_of_pos (by norm_num)
  obtain ⟨Λ, Λ', h1, h2, h3⟩ := C143_files_3d
    (env := { realEnv with fs := lineFiles3 ripple })
    (env' := { realEnv with fs := lineFiles3 fun _ => 1 })
    ⟨rfl, rfl, rfl⟩ ⟨rfl, rfl, rfl⟩ (.inl rfl) (.inl rfl) queue queue' k (line3_samples ripple)
    (line3_samples fun _ => 1) hl hl ht ht
    (a := 1 / 1000) (B := 2) (η := 1 / 1000) (by norm_num)
    (fun j _ a _ b _ e _ c => by
      fin_cases c
      · simp
      · simp
      · refine ⟨fun _ => ?_, fun _ => by simp, fun _ => by simp⟩
        have := ripple_slope (-4 + ((a : ℝ) + 1) * (1 / 100)) (-4 + a * (1 / 100))
        have e : (-4 + ((a : ℝ) + 1) * (1 / 100)) - (-4 + a * (1 / 100)) = 1 / 100 := by ring
        rw [e, habs] at this
        simpa using this)
    (fun j _ a _ b _ e _ => by
      rw [pi_norm_le_iff_of_nonneg (by norm_num)]
      intro c
      fin_cases c
      · simp
      · simp
      · exact ripple_near _)
    (fun j _ a _ b _ e _ => by
      rw [pi_norm_le_iff_of_nonneg (by norm_num)]
      intro c
      fin_cases c
      · simp
      · simp
      · exact ripple_le _)
    (fun j _ a _ b _ e _ => by
      rw [pi_norm_le_iff_of_nonneg (by norm_num)]
      intro c
      fin_cases c <;> simp)
    s1 s2 (show readSeedParticles (lineFiles3 ripple) "p" = .ok P from s3)
    (show readSeedParticles (lineFiles3 fun _ => 1) "p" = .ok P from s3) (fun i hi => by
      obtain rfl : i = 0 := by omega
      have e : ∀ b : Fin 6, ∀ c : Fin 3, pt seed 1 b 0 c = cross3 0 1 b c := fun b c =>
        congrFun (s4 b) c
      have := e 0 0; have := e 0 1; have := e 0 2; have := e 1 0; have := e 1 1; have := e 1 2
      have := e 2 0; have := e 2 1; have := e 2 2; have := e 3 0; have := e 3 1; have := e 3 2
      have := e 4 0; have := e 4 1; have := e 4 2; have := e 5 0; have := e 5 1; have := e 5 2
      clear s3 s4
      simp_all [AxisAligned3, cross3]
      norm_num)
    (fun i hi b z hz => by
      obtain rfl : i = 0 := by omega
      rw [s4, habs] at hz
      have c0 : |cross3 0 1 b 0| ≤ 1 := by fin_cases b <;> simp [cross3]
      have c1 : |cross3 0 1 b 1| ≤ 1 := by fin_cases b <;> simp [cross3]
      have c2 : |cross3 0 1 b 2| ≤ 1 := by fin_cases b <;> simp [cross3]
      have z0 := (norm_le_pi_norm (z - cross3 0 1 b) 0).trans hz
      have z1 := (norm_le_pi_norm (z - cross3 0 1 b) 1).trans hz
      have z2 := (norm_le_pi_norm (z - cross3 0 1 b) 2).trans hz
      rw [Pi.sub_apply, Real.norm_eq_abs, abs_le] at z0 z1 z2
      rw [abs_le] at c0 c1 c2
      norm_num at z0 z1 z2
      exact ⟨fine_axis (by linarith [z0.1, c0.1]) (by linarith [z0.2, c0.2]),
        fine_axis (by linarith [z1.1, c1.1]) (by linarith [z1.2, c1.2]),
        fine_axis (by linarith [z2.1, c2.1]) (by linarith [z2.2, c2.2])⟩)
    le_rfl (by norm_num)
  have e : Λ 0 = .fin l := by
    have h1' := h1.symm.trans r1
    simpa using h1'
  have w1 : groupOf seed 6 1 3 0 1 0 - groupOf seed 6 1 3 0 0 0 = 2 := by
    simp [s4, cross3]; norm_num
  have w2 : groupOf seed 6 1 3 0 2 1 - groupOf seed 6 1 3 0 3 1 = 2 := by
    simp [s4, cross3]; norm_num
  have w3 : groupOf seed 6 1 3 0 4 2 - groupOf seed 6 1 3 0 5 2 = 2 := by
    simp [s4, cross3]; norm_num
  have h4 := h3 0 one_pos
  rw [e, w1, w2, w3, habs] at h4
  obtain ⟨l', e1, e2⟩ := fieldNear_abs (c := 10) (e := 1) (by norm_num) (by norm_num) r2
    (by cases k <;> norm_num [growth]) (by cases k <;> norm_num [growth])
    (by cases k <;> norm_num [growth]) h4
  refine ⟨l, l', r1, ?_, e2⟩
  rw [← e1]
  exact h2

end Verif
