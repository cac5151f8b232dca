import Verif.Props.Api64

/-!
# C114: the hypotheses can be met

The shear flow `(0, x, 0)` with two steps of `2^-10` and six seeds at distance 1 from the origin, and its
restriction to the plane.
-/

namespace Verif

open Set Matrix

theorem lin_step : (⟨1 / 1024⟩ : Fl).re = 1 / 1024 := by norm_num [Fl.re]

theorem lin_steady3 : Steady64 linShear3 linShear64x3 cross64x3 1 2 ⟨1 / 1024⟩ 0 1 1 0 1 3
    (fun _ (b : Fin 6) => linPath3 (cross3 0 1 b)) where
  two := le_rfl
  step := by
    rw [lin_step, abs_of_pos (by norm_num)]
    exact (zpow_le_zpow_right₀ (by norm_num) (by norm_num : (-500 : ℤ) ≤ -10)).trans (by norm_num)
  span := by
    rw [lin_step, abs_of_pos (by norm_num)]
    exact le_trans (by norm_num) (one_le_pow₀ (by norm_num : (1 : ℝ) ≤ 2))
  eps := le_rfl
  radius := zero_le_one
  small := by rw [lin_step, abs_of_pos (by norm_num)]; exact linSmall.1
  path i hi b := by
    have h0 : ∀ b : Fin 6, ∀ c, |cross3 (0 : Fin 3 → ℝ) 1 b c| ≤ 1 := by
      intro b c
      fin_cases b <;> fin_cases c <;> simp [cross3]
    obtain rfl : i = 0 := by omega
    refine ⟨linShear3_along (h0 b 0) _ _, ?_, ?_⟩
    · rw [cross64x3_re]; funext c; fin_cases c <;> simp [linPath3]
    · intro t ht
      rw [lin_step, uIcc_of_le (by norm_num)] at ht
      have : |t * cross3 (0 : Fin 3 → ℝ) 1 b 0| ≤ 1 * 1 := by
        rw [abs_mul]
        refine mul_le_mul ?_ (h0 b 0) (abs_nonneg _) zero_le_one
        rw [abs_of_nonneg ht.1]
        exact ht.2.trans (by norm_num)
      have hn : ‖linPath3 (cross3 0 1 b) t‖ ≤ 2 := by
        rw [pi_norm_le_iff_of_nonneg (by norm_num)]
        intro c
        fin_cases c
        · exact (h0 b 0).trans (by norm_num)
        · exact (abs_add_le _ _).trans (by linarith [h0 b 1])
        · exact (h0 b 2).trans (by norm_num)
      linarith
  near i _ b j _ z _ := by
    rw [one_mul, zero_add ‖_‖, pi_norm_le_iff_of_nonneg (norm_nonneg _)]
    intro c
    fin_cases c
    · simp [reVec, linShear64x3, linShear3, Fl.re]
    · exact norm_le_pi_norm (reVec z - linPath3 (cross3 0 1 b) (j * (⟨1 / 1024⟩ : Fl).re)) 0
    · simp [reVec, linShear64x3, linShear3, Fl.re]

theorem lin_error : 0 ≤ steadyError 2 ⟨1 / 1024⟩ 0 1 1 0 1 3 ∧
    steadyError 2 ⟨1 / 1024⟩ 0 1 1 0 1 3 ≤ 1 / 500000 := by
  obtain ⟨small, pe⟩ := linSmall
  unfold steadyError
  rw [lin_step, abs_of_pos (by norm_num : (0 : ℝ) < 1 / 1024)]
  refine ⟨?_, pe⟩
  have := small.eps
  unfold posError
  positivity

theorem lin_stretch3 : ∃ σ b : ℝ, 1 ≤ σ ∧ σ ≤ 1 + 1 / 512 ∧ 0 ≤ b ∧ b ≤ 187 / 10 ^ 7 ∧
    IsMaxStretch !![1, 0, 0; 1 / 512, 1, 0; 0, 0, 1] σ ∧
    Stretch64x3 cross64x3 1 2 ⟨1 / 1024⟩ (steadyError 2 ⟨1 / 1024⟩ 0 1 1 0 1 3)
      (fun _ b => linPath3 (cross3 0 1 b)) (fun _ => !![1, 0, 0; 1 / 512, 1, 0; 0, 0, 1])
      (fun _ => σ) (fun _ => b) := by
  obtain ⟨σ, hσ⟩ := ftle3_computes.exists_stretch !![(1 : ℝ), 0, 0; 1 / 512, 1, 0; 0, 0, 1]
  have hσ0 : 1 ≤ σ := by
    have := entry_le_stretch hσ 0 0
    simpa using this
  have hσ2 : σ ≤ 1 + 1 / 512 := by
    have := maxStretch_le_add hσ (maxStretch_one (d := 3))
    simp [Fin.sum_univ_three] at this
    norm_num [Matrix.one_apply, Fin.ext_iff] at this
    linarith
  obtain ⟨e0, e1⟩ := lin_error
  have hΔ : (groupOf cross64x3 6 1 3 0 1 0).re - (groupOf cross64x3 6 1 3 0 0 0).re = 2 ∧
      (groupOf cross64x3 6 1 3 0 2 1).re - (groupOf cross64x3 6 1 3 0 3 1).re = 2 ∧
      (groupOf cross64x3 6 1 3 0 4 2).re - (groupOf cross64x3 6 1 3 0 5 2).re = 2 := by
    refine ⟨?_, ?_, ?_⟩ <;> simp [groupOf, rowOf, cross64x3, Fl.re] <;> norm_num
  set e := steadyError 2 ⟨1 / 1024⟩ 0 1 1 0 1 3
  have hb : 0 ≤ 62 / 10 * e * (1 / |(2 : ℝ)| + 1 / |(2 : ℝ)| + 1 / |(2 : ℝ)|) +
      2 ^ (-53 : ℤ) * (1 + 36 * σ) ∧
      62 / 10 * e * (1 / |(2 : ℝ)| + 1 / |(2 : ℝ)| + 1 / |(2 : ℝ)|) +
      2 ^ (-53 : ℤ) * (1 + 36 * σ) ≤ 187 / 10 ^ 7 := by
    rw [abs_of_pos (by norm_num)]
    constructor
    · positivity
    · have : (2 : ℝ) ^ (-53 : ℤ) * (1 + 36 * σ) ≤ 2 ^ (-53 : ℤ) * 40 :=
        mul_le_mul_of_nonneg_left (by linarith) (by positivity)
      norm_num at this ⊢
      linarith
  have h2 : (2 : ℝ) ^ (-500 : ℤ) ≤ |2| :=
    (zpow_le_one_of_nonpos₀ (by norm_num) (by norm_num)).trans (by norm_num)
  refine ⟨σ, _, hσ0, hσ2, hb.1, hb.2, hσ, ?_, ?_, fun _ _ => hσ, ?_, ?_⟩
  · intro i hi
    obtain rfl : i = 0 := by omega
    rw [hΔ.1, hΔ.2.1, hΔ.2.2]
    exact ⟨h2, h2, h2⟩
  · intro i hi
    obtain rfl : i = 0 := by omega
    simp only [cross64x3_re, lin_step]
    ext i j
    fin_cases i <;> fin_cases j <;> simp [diffs3, cross3, linPath3] <;> norm_num
  · intro i hi
    obtain rfl : i = 0 := by omega
    simp only [hΔ.1, hΔ.2.1, hΔ.2.2]
  · intro i hi
    have : (2 : ℝ) ^ (-200 : ℤ) ≤ 2 ^ (-1 : ℤ) := zpow_le_zpow_right₀ (by norm_num) (by norm_num)
    norm_num at this hb ⊢
    linarith [hb.2]

/-- The value is within two per cent of the exponent `1024 ln σ`, which is about 1. -/
theorem lin_good3 {σ b : ℝ} (hσ0 : 1 ≤ σ) (hσ2 : σ ≤ 1 + 1 / 512) (hb : b ≤ 187 / 10 ^ 7)
    {Λ : ℕ → Val64} (h : Good64x3 1 2 ⟨1 / 1024⟩ (2 ^ (-52 : ℤ)) (2 ^ (-40 : ℤ)) (fun _ => σ) (fun _ => b)
      Λ) : (Λ 0).Within (1024 * Real.log σ) (2 / 100) := by
  obtain ⟨x, hx, hxb⟩ := h 0 one_pos
  refine ⟨x, hx, ?_⟩
  have hl0 : 0 ≤ Real.log σ := Real.log_nonneg hσ0
  have hl1 : Real.log σ ≤ 1 / 512 := (Real.log_le_sub_one_of_pos (by linarith)).trans (by linarith)
  have hd : b / (σ - b) ≤ 188 / 10 ^ 7 := by
    rw [div_le_iff₀ (by linarith)]
    linarith
  rw [lin_step, abs_of_pos (by norm_num : (0 : ℝ) < 1 / 1024), abs_of_nonneg hl0] at hxb
  norm_num at hxb hd ⊢
  refine hxb.trans ?_
  linarith

/-- An empty folder. -/
def linDisk : Disk (Saved Fl Val64) := diskOf [tmpName] [([], .dir), ([tmpName], .dir)] []

theorem linName (m : Libm) (la : Linalg) (h : Fl) (i : ℕ) :
    apiFileName (flEnv3 m la).timeName h "mat" i = "ftle_.mat".toList := by
  unfold apiFileName
  rw [if_pos rfl]
  show ("ftle_" ++ "" ++ ".mat").toList = "ftle_.mat".toList
  decide +kernel

theorem linTarget : linDisk.target (apiFolder (some "out".toList) demoNow) =
    [tmpName, "out".toList] := by decide +kernel

theorem linTakes (m : Libm) (la : Linalg) (h : Fl) :
    linDisk.Takes (apiFolder (some "out".toList) demoNow)
      ((List.range 1).map (apiFileName (flEnv3 m la).timeName h "mat")) := by
  have hway : linDisk.way (apiFolder (some "out".toList) demoNow) =
      [[tmpName], [tmpName, "out".toList]] := by decide +kernel
  have hnames : (List.range 1).map (apiFileName (flEnv3 m la).timeName h "mat") =
      ["ftle_.mat".toList] := by
    simp only [List.range_one, List.map_cons, List.map_nil, linName]
  refine ⟨diskOf_tree rfl rfl ?_, .inl (by decide +kernel), ?_, ?_, ?_⟩
  · intro e he
    simp only [List.mem_cons, List.not_mem_nil, or_false] at he
    rcases he with rfl | rfl
    · exact .inl rfl
    · exact .inr rfl
  · rw [hway]
    intro x hx
    simp only [List.mem_cons, List.not_mem_nil, or_false] at hx
    rcases hx with rfl | rfl
    · exact .inl rfl
    · exact .inr ⟨rfl, rfl⟩
  · rw [linTarget]
    rfl
  · rw [hway, linTarget, hnames]
    intro n hn
    simp only [List.mem_cons, List.not_mem_nil, or_false] at hn
    subst hn
    refine ⟨?_, rfl, by decide⟩
    rw [show linDisk.node _ = none from rfl]
    simp

/-- A call for one 3-D field in binary64, with RK4 and MATLAB output in the folder `out`: it runs to its
end, and its file holds a value within two per cent of the exponent. -/
example : ∃ (m : Libm) (la : Linalg) (S : ApiSolver Fl Val64) (P : Particles Fl) (σ : ℝ),
    m.Accurate (2 ^ (-52 : ℤ)) ∧ la.Accurate (2 ^ (-40 : ℤ)) ∧
    IsMaxStretch !![1, 0, 0; 1 / 512, 1, 0; 0, 0, 1] σ ∧ mkParticles cross64x3 = .ok P ∧
    (startApi id (fun _ => sourceOf 3 linShear64x3) P ⟨1 / 1024⟩ (.ok (2 : ℕ)) (1 : ℕ) "rk4" 1 true "mat"
      (some "out".toList) demoNow linDisk).2.2 =
        .ok (S, some (Writer.fresh .mat none, "out".toList)) ∧
    ∃ s₀ as st rs, (S.host (flEnv3 m la)).init (fun _ _ => ⟨5⟩) = .ok s₀ ∧
      HostState.Exec (S.host (flEnv3 m la)) (fun _ _ => ⟨5⟩) s₀ as st ∧ st.pool.phase = .returned rs ∧
      ∃ saved Λ, (Λ : Val64).Within (1024 * Real.log σ) (2 / 100) ∧
        saved.Says (apiRecords "mat" cross64x3 1 3 [Λ]) ∧
        ((startApi (F := Val64) id (fun _ => sourceOf 3 linShear64x3) P ⟨1 / 1024⟩ (.ok (2 : ℕ)) (1 : ℕ)
            "rk4" 1 true "mat" (some "out".toList) demoNow linDisk).1.writeFiles "out".toList
            (apiFiles (Writer.fresh .mat none) id rs [0])).1.node
          [tmpName, "out".toList, "ftle_.mat".toList] = some (.file saved) := by
  obtain ⟨m, hm⟩ := exists_libm (κ := 2 ^ (-52 : ℤ)) (by positivity)
  obtain ⟨la, ha⟩ := exists_linalg (μ := 2 ^ (-40 : ℤ)) (by positivity)
  obtain ⟨P, hP, -⟩ := mkParticles_3d (show cross64x3.shape = [6 * 1, 3] from rfl)
  obtain ⟨σ, b, hσ0, hσ2, hb0, hb1, hσ, hD⟩ := lin_stretch3
  obtain ⟨S, hS⟩ : ∃ S : ApiSolver Fl Val64, (startApi id (fun _ => sourceOf 3 linShear64x3) P ⟨1 / 1024⟩
      (.ok (2 : ℕ)) (1 : ℕ) "rk4" 1 true "mat" (some "out".toList) demoNow linDisk).2.2 =
        .ok (S, some (Writer.fresh .mat none, "out".toList)) := by
    refine ⟨⟨P, ⟨1 / 1024⟩, 1, 2, .analytical (.fresh (some fun _ => sourceOf 3 linShear64x3)),
      Integ.fresh .rk4, some (Writer.fresh .mat none).asWriteFn, 1⟩, ?_⟩
    simp [startApi, ApiSolver.create, createInterpolator, createIntegrator, createWriter, apiFolder]
  obtain ⟨-, hcreate, -⟩ := startApi_ok id rfl hS
  obtain ⟨-, -, -, c4, -, c6, -⟩ := C65_constructor id rfl _ _ _ _ _ _ _ _ _ _ hcreate
  obtain ⟨s₀, h₀⟩ := (C65_start (flEnv3 m la) S (fun _ _ => ⟨5⟩)).1 (by rw [c4]; simp) (by rw [c6])
  have key := fun st as hx => C114_files_3d (env := flEnv3 m la) (m := m) (la := la) ⟨rfl, rfl⟩ ⟨rfl, rfl⟩
    hm (by positivity) (by norm_num) ha (by positivity) (by norm_num) lin_steady3 hD rfl hP
    (sourceOf_pointwise _ _ _) rfl rfl hS (by simp [apiFolder]) (by intro i _; simp [flEnv3, flEnv])
    (by simp) (linTakes m la _) (fun _ _ => ⟨5⟩) (st := st) (as := as) h₀ hx
  obtain ⟨bs, st, rs, h1, h2⟩ := (key _ [] .nil).1 (by simp)
  obtain ⟨-, h3⟩ := (key st _ h1).2 rs h2 [0] (List.Perm.refl _) id
  obtain ⟨saved, Λ, h4, h5, h6⟩ := h3 0 (by omega)
  rw [linTarget, linName] at h6
  exact ⟨m, la, S, P, σ, hm, ha, hσ, hP, hS, s₀, _, st, rs, h₀, h1, h2, saved, Λ 0,
    lin_good3 hσ0 hσ2 hb1 h4, h5, h6⟩

/-! ## The plane -/

theorem lin_steady2 : Steady64 linShear linShear64 cross64 1 2 ⟨1 / 1024⟩ 0 1 1 0 1 3
    (fun _ (b : Fin 4) => linPath (cross2 0 1 b)) where
  two := le_rfl
  step := lin_steady3.step
  span := lin_steady3.span
  eps := le_rfl
  radius := zero_le_one
  small := lin_steady3.small
  path i hi b := by
    have h0 : ∀ b : Fin 4, ∀ c, |cross2 (0 : Fin 2 → ℝ) 1 b c| ≤ 1 := by
      intro b c
      fin_cases b <;> fin_cases c <;> simp [cross2]
    obtain rfl : i = 0 := by omega
    refine ⟨linShear_along (h0 b 0) _ _, ?_, ?_⟩
    · rw [cross64_re]; funext c; fin_cases c <;> simp [linPath]
    · intro t ht
      rw [lin_step, uIcc_of_le (by norm_num)] at ht
      have : |t * cross2 (0 : Fin 2 → ℝ) 1 b 0| ≤ 1 * 1 := by
        rw [abs_mul]
        refine mul_le_mul ?_ (h0 b 0) (abs_nonneg _) zero_le_one
        rw [abs_of_nonneg ht.1]
        exact ht.2.trans (by norm_num)
      have hn : ‖linPath (cross2 0 1 b) t‖ ≤ 2 := by
        rw [pi_norm_le_iff_of_nonneg (by norm_num)]
        intro c
        fin_cases c
        · exact (h0 b 0).trans (by norm_num)
        · exact (abs_add_le _ _).trans (by linarith [h0 b 1])
      linarith
  near i _ b j _ z _ := by
    rw [one_mul, zero_add ‖_‖, pi_norm_le_iff_of_nonneg (norm_nonneg _)]
    intro c
    fin_cases c
    · simp [reVec, linShear64, linShear, Fl.re]
    · exact norm_le_pi_norm (reVec z - linPath (cross2 0 1 b) (j * (⟨1 / 1024⟩ : Fl).re)) 0

theorem lin_stretch2 : ∃ σ b : ℝ, 1 + 1 / 512 ≤ σ ^ 2 ∧ 1 ≤ σ ∧ σ ≤ 1 + 1 / 512 ∧ 0 ≤ b ∧ b ≤ 83 / 10 ^ 7 ∧
    IsMaxStretch !![1, 0; 1 / 512, 1] σ ∧
    Stretch64 cross64 1 2 ⟨1 / 1024⟩ (steadyError 2 ⟨1 / 1024⟩ 0 1 1 0 1 3)
      (fun _ b => linPath (cross2 0 1 b)) (fun _ => !![1, 0; 1 / 512, 1]) (fun _ => σ) (fun _ => b) := by
  obtain ⟨σ, hσ⟩ := ftle2_computes.exists_stretch !![(1 : ℝ), 0; 1 / 512, 1]
  have hσ0 : 1 ≤ σ := by
    have := entry_le_stretch hσ 0 0
    simpa using this
  have hσ1 : 1 + 1 / 512 ≤ σ ^ 2 := by
    have h1 := maxStretch_bound hσ ![1, 1]
    have h2 := pow_le_pow_left₀ (len_nonneg _) h1 2
    rw [mul_pow, len_sq, len_sq] at h2
    simp [Matrix.mulVec, dotProduct, Fin.sum_univ_two] at h2
    linarith
  have hσ2 : σ ≤ 1 + 1 / 512 := by
    have := maxStretch_le_add hσ (maxStretch_one (d := 2))
    simpa [Fin.sum_univ_two] using this
  obtain ⟨e0, e1⟩ := lin_error
  have hΔ : (groupOf cross64 4 1 2 0 1 0).re - (groupOf cross64 4 1 2 0 0 0).re = 2 ∧
      (groupOf cross64 4 1 2 0 2 1).re - (groupOf cross64 4 1 2 0 3 1).re = 2 := by
    refine ⟨?_, ?_⟩ <;> simp [groupOf, rowOf, cross64, Fl.re] <;> norm_num
  set e := steadyError 2 ⟨1 / 1024⟩ 0 1 1 0 1 3
  have hb : 0 ≤ 41 / 10 * e * (1 / |(2 : ℝ)| + 1 / |(2 : ℝ)|) + 2 ^ (-53 : ℤ) * (1 + 16 * σ) ∧
      41 / 10 * e * (1 / |(2 : ℝ)| + 1 / |(2 : ℝ)|) + 2 ^ (-53 : ℤ) * (1 + 16 * σ) ≤ 83 / 10 ^ 7 := by
    rw [abs_of_pos (by norm_num)]
    constructor
    · positivity
    · have : (2 : ℝ) ^ (-53 : ℤ) * (1 + 16 * σ) ≤ 2 ^ (-53 : ℤ) * 20 :=
        mul_le_mul_of_nonneg_left (by linarith) (by positivity)
      norm_num at this ⊢
      linarith
  have h2 : (2 : ℝ) ^ (-500 : ℤ) ≤ |2| :=
    (zpow_le_one_of_nonpos₀ (by norm_num) (by norm_num)).trans (by norm_num)
  refine ⟨σ, _, hσ1, hσ0, hσ2, hb.1, hb.2, hσ, ?_, ?_, fun _ _ => hσ, ?_, ?_⟩
  · intro i hi
    obtain rfl : i = 0 := by omega
    rw [hΔ.1, hΔ.2]
    exact ⟨h2, h2⟩
  · intro i hi
    obtain rfl : i = 0 := by omega
    simp only [cross64_re, lin_step]
    ext i j
    fin_cases i <;> fin_cases j <;> simp [diffs2, cross2, linPath] <;> norm_num
  · intro i hi
    obtain rfl : i = 0 := by omega
    simp only [hΔ.1, hΔ.2]
  · intro i hi
    have : (2 : ℝ) ^ (-200 : ℤ) ≤ 2 ^ (-1 : ℤ) := zpow_le_zpow_right₀ (by norm_num) (by norm_num)
    norm_num at this hb ⊢
    linarith [hb.2]

/-- The value is a number within one per cent of the exponent `1024 ln σ`, which is about 1. -/
theorem lin_good2 {σ b : ℝ} (hσ1 : 1 + 1 / 512 ≤ σ ^ 2) (hσ0 : 1 ≤ σ) (hσ2 : σ ≤ 1 + 1 / 512) (hb0 : 0 ≤ b)
    (hb1 : b ≤ 83 / 10 ^ 7) {Λ : ℕ → Val64} (h : Good64 1 2 ⟨1 / 1024⟩ (2 ^ (-52 : ℤ))
      (fun _ => !![1, 0; 1 / 512, 1]) (fun _ => σ) (fun _ => b) Λ) :
    (Λ 0).Within (1024 * Real.log σ) (1 / 100) := by
  obtain ⟨c1, c2, -⟩ := h 0 one_pos
  have hbσ : b * σ ≤ 83 / 10 ^ 7 * (1 + 1 / 512) := mul_le_mul hb1 hσ2 (by linarith) (by norm_num)
  have hq : 1 + 1 / 1024 ≤ (σ - b) ^ 2 := by
    have : (σ - b) ^ 2 = σ ^ 2 - 2 * (b * σ) + b ^ 2 := by ring
    rw [this]
    have := sq_nonneg b
    linarith
  have hb2 : b ^ 2 ≤ 1 / 10 ^ 5 := by
    have := pow_le_pow_left₀ hb0 hb1 2
    norm_num at this ⊢
    linarith
  have hnan := c2 (by
    rw [Matrix.det_fin_two]
    have := mul_le_mul_of_nonneg_left hq (by norm_num : (0 : ℝ) ≤ 1 - 2 ^ (-22 : ℤ))
    refine le_trans ?_ this
    norm_num at hbσ hb2 ⊢
    linarith)
  obtain ⟨x, hx, hxb⟩ := c1.resolve_left hnan
  refine ⟨x, hx, ?_⟩
  have hl0 : 0 ≤ Real.log σ := Real.log_nonneg hσ0
  have hl1 : Real.log σ ≤ 1 / 512 := (Real.log_le_sub_one_of_pos (by linarith)).trans (by linarith)
  have hd : b / (σ - b) ≤ 831 / 10 ^ 8 := by
    rw [div_le_iff₀ (by linarith)]
    linarith
  rw [lin_step, abs_of_pos (by norm_num : (0 : ℝ) < 1 / 1024), abs_of_nonneg hl0] at hxb
  norm_num at hxb hd ⊢
  refine hxb.trans ?_
  linarith

/-- A call for two 2-D fields in binary64 with two processes: it runs to its end and returns two rows, with
one value within one per cent of the exponent in each. -/
example : ∃ (m : Libm) (la : Linalg) (S : ApiSolver Fl Val64) (P : Particles Fl) (σ : ℝ),
    m.Accurate (2 ^ (-52 : ℤ)) ∧ IsMaxStretch !![1, 0; 1 / 512, 1] σ ∧ mkParticles cross64 = .ok P ∧
    ApiSolver.create id (fun _ => sourceOf 2 linShear64) P ⟨1 / 1024⟩ (.ok (2 : ℕ)) (2 : ℕ) "rk4" 2 false
      "mat" = .ok S ∧
    ∃ s₀ as st rs, (S.host (flEnv3 m la)).init (fun _ _ => ⟨5⟩) = .ok s₀ ∧
      HostState.Exec (S.host (flEnv3 m la)) (fun _ _ => ⟨5⟩) s₀ as st ∧ st.pool.phase = .returned rs ∧
      ∃ a b : Val64, a.Within (1024 * Real.log σ) (1 / 100) ∧ b.Within (1024 * Real.log σ) (1 / 100) ∧
        S.outcome st = some (.ok (.stack [[a], [b]])) := by
  obtain ⟨m, hm⟩ := exists_libm (κ := 2 ^ (-52 : ℤ)) (by positivity)
  obtain ⟨la, -⟩ := exists_linalg (μ := 2 ^ (-40 : ℤ)) (by positivity)
  obtain ⟨P, hP, -⟩ := mkParticles_2d (show cross64.shape = [4 * 1, 2] from rfl)
  obtain ⟨σ, b, hσ1, hσ0, hσ2, hb0, hb1, hσ, hD⟩ := lin_stretch2
  obtain ⟨S, hS⟩ : ∃ S : ApiSolver Fl Val64, ApiSolver.create id (fun _ => sourceOf 2 linShear64) P
      ⟨1 / 1024⟩ (.ok (2 : ℕ)) (2 : ℕ) "rk4" 2 false "mat" = .ok S := by
    refine ⟨⟨P, ⟨1 / 1024⟩, 2, 2, .analytical (.fresh (some fun _ => sourceOf 2 linShear64)),
      Integ.fresh .rk4, none, 2⟩, ?_⟩
    simp [ApiSolver.create, createInterpolator, createIntegrator]
  obtain ⟨-, -, -, c4, -, c6, -⟩ := C65_constructor id rfl _ _ _ _ _ _ _ _ _ _ hS
  obtain ⟨s₀, h₀⟩ := (C65_start (flEnv3 m la) S (fun _ _ => ⟨5⟩)).1 (by rw [c4]; simp) (by rw [c6]; simp)
  have key := fun st as hx => C114_array_2d (env := flEnv3 m la) (m := m) (la := la) ⟨rfl, rfl⟩ ⟨rfl, rfl⟩
    hm (by positivity) (by norm_num) lin_steady2 hD rfl hP (sourceOf_pointwise _ _ _) rfl (by omega) rfl hS
    (fun _ _ => ⟨5⟩) (st := st) (as := as) h₀ hx
  obtain ⟨bs, st, rs, h1, h2⟩ := (key _ [] .nil).1 (by simp)
  obtain ⟨Λ, h3, h4⟩ := (key st _ h1).2 rs h2
  exact ⟨m, la, S, P, σ, hm, hσ, hP, hS, s₀, _, st, rs, h₀, h1, h2, Λ 0 0, Λ 1 0,
    lin_good2 hσ1 hσ0 hσ2 hb0 hb1 (h3 0), lin_good2 hσ1 hσ0 hσ2 hb0 hb1 (h3 1), h4⟩

end Verif
