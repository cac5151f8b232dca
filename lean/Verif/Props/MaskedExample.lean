import Verif.Props.Masked
import Verif.Props.GridErrorExample
import Verif.Props.GridInterp

/-!
# C90, C91: a grid with one missing sample

The shear flow `(0, x)` on the nodes `0, …, 4` of both axes; the sample at the origin is missing.
-/

namespace Verif

open Matrix Set Miss

/-- Samples on 3 by 3 nodes, one of them missing. -/
def gapField : NDArray (Miss ℚ) :=
  ⟨[3, 3], fun i => if i = [2, 1] then nan else num (1 + 2 * i.headD 0 + 3 * i.getD 1 0)⟩

theorem gap_between {X : ℚ} (h0 : 0 < X) (h1 : X < 1) (n : ℕ) : BetweenNodes (X + n) := by
  intro i e
  have h2 : (n : ℚ) < i := by linarith
  have h3 : (i : ℚ) < n + 1 := by linarith
  have h2 : n < i := by exact_mod_cast h2
  have h3 : i < n + 1 := by exact_mod_cast h3
  omega

/-- In the first cell the gap does not matter, in the last it does. -/
example : interp2dAt (Miss.machine exMachine) gapField 3 3 (some (num (1 / 2))) (some (num (1 / 2))) =
      .ok (num (7 / 2)) ∧
    interp2dAt (Miss.machine exMachine) gapField 3 3 (some (num (3 / 2))) (some (num (3 / 2))) =
      .ok nan := by
  have b1 : BetweenNodes (1 / 2 : ℚ) := by simpa using gap_between (X := 1 / 2) (by norm_num) (by norm_num) 0
  have b2 : BetweenNodes (3 / 2 : ℚ) := by
    have := gap_between (X := 1 / 2) (by norm_num) (by norm_num) 1
    norm_num at this ⊢
    exact this
  constructor
  · obtain ⟨r, r1, r2, r3⟩ := C90_between_2d_partial exMachine_target (nx := 3) (ny := 3) (by norm_num)
      (by norm_num) (v := gapField) rfl (X := 1 / 2) (Y := 1 / 2) (by constructor <;> norm_num)
      (by constructor <;> norm_num) b1 b1
    have hr : r ≠ nan := by
      rw [ne_eq, r2]
      rintro ⟨i, -, j, -, hw, hv⟩
      have : i = 2 := by
        by_contra h
        simp [gapField, h] at hv
      subst this
      norm_num [hat] at hw
    rw [r1, r3 hr]
    norm_num [Finset.sum_range_succ, hat, gapField, Miss.get, abs_of_pos, abs_of_neg]
  · exact C90_used_2d_partial exMachine_target (by norm_num) (by norm_num) rfl
      (by constructor <;> norm_num) (by constructor <;> norm_num) (i := 2) (j := 1)
      (by norm_num [hat, abs_of_neg]) (by simp [gapField])

theorem cellOf_mid (n : ℕ) : cellOf ((1 / 2 : ℚ) + n) = n := by
  have : ⌊(1 / 2 : ℚ) + n⌋ = n := by
    rw [Int.floor_eq_iff]
    push_cast
    constructor <;> linarith
  rw [cellOf, this, Int.toNat_natCast]

/-- On the line of nodes 1 the gap on line 2 is felt without weight. -/
example : interp2dAt (Miss.machine exMachine) gapField 3 3 (some (num ((1 : ℕ) : ℚ)))
      (some (num (1 / 2 + (1 : ℕ)))) = .ok nan ∧
    ∀ j, hat ((1 : ℕ) : ℚ) (1 + 1) * hat (1 / 2 + ((1 : ℕ) : ℚ)) j = 0 :=
  C90_line_2d_fails exMachine_target (by norm_num) (by norm_num) (v := gapField) rfl (by norm_num)
    (by constructor <;> norm_num) (by rw [cellOf_mid]; simp [gapField])

/-- Samples on 3 by 3 by 3 nodes, one of them missing. -/
def gapField3 : NDArray (Miss ℚ) :=
  ⟨[3, 3, 3], fun i => if i = [2, 1, 0] then nan else num (1 + i.headD 0 + 5 * i.getD 2 0)⟩

example : interp3dAt (Miss.machine exMachine) gapField3 3 3 3 (some (num (1 / 2)))
    (some (num (1 / 2))) (some (num (1 / 2))) = .ok (num 4) := by
  have b1 : BetweenNodes (1 / 2 : ℚ) := by simpa using gap_between (X := 1 / 2) (by norm_num) (by norm_num) 0
  obtain ⟨r, r1, r2, r3⟩ := C90_between_3d_partial exMachine_target (nx := 3) (ny := 3) (nz := 3)
    (by norm_num) (by norm_num) (by norm_num) (by norm_num) (v := gapField3) rfl (X := 1 / 2)
    (Y := 1 / 2) (Z := 1 / 2) (by constructor <;> norm_num) (by constructor <;> norm_num)
    (by constructor <;> norm_num) b1 b1 b1
  have hr : r ≠ nan := by
    rw [ne_eq, r2]
    rintro ⟨i, -, j, -, k, -, hw, hv⟩
    have : i = 2 := by
      by_contra h
      simp [gapField3, h] at hv
    subst this
    norm_num [hat] at hw
  rw [r1, r3 hr]
  norm_num [Finset.sum_range_succ, hat, gapField3, Miss.get, abs_of_pos, abs_of_neg]

example : interp3dAt (Miss.machine exMachine) gapField3 3 3 3 (some (num ((1 : ℕ) : ℚ)))
      (some (num (1 / 2 + (1 : ℕ)))) (some (num (1 / 2 + (0 : ℕ)))) = .ok nan ∧
    ∀ j k, hat ((1 : ℕ) : ℚ) (1 + 1) * hat (1 / 2 + ((1 : ℕ) : ℚ)) j * hat (1 / 2 + ((0 : ℕ) : ℚ)) k = 0 :=
  C90_plane_3d_fails exMachine_target (by norm_num) (by norm_num) (by norm_num) (by norm_num)
    (v := gapField3) rfl (by norm_num) (by constructor <;> norm_num) (by constructor <;> norm_num)
    (by rw [cellOf_mid, cellOf_mid]; simp [gapField3])

/-- On the node before the gap the result is missing; on the gap's own line beyond it, there is none. -/
example : interp2dAt (Miss.machine exMachine) gapField 3 3 (some (num 1)) (some (num 0)) = .ok nan ∧
    interp2dAt (Miss.machine exMachine) gapField 3 3 (some (num (1 / 2))) (some (num 1)) =
      .ok (num 5) := by
  constructor
  · obtain ⟨r, r1, r2, -⟩ := C90_exact_2d exMachine_target (nx := 3) (ny := 3) (by norm_num)
      (by norm_num) (v := gapField) rfl (X := 1) (Y := 0) (by constructor <;> norm_num)
      (by constructor <;> norm_num)
    rw [r1, r2.2 ⟨2, by norm_num, 1, by norm_num, by constructor <;> norm_num,
      by constructor <;> norm_num, by simp [gapField]⟩]
  · obtain ⟨r, r1, r2, r3⟩ := C90_exact_2d exMachine_target (nx := 3) (ny := 3) (by norm_num)
      (by norm_num) (v := gapField) rfl (X := 1 / 2) (Y := 1) (by constructor <;> norm_num)
      (by constructor <;> norm_num)
    have hr : r ≠ nan := by
      rw [ne_eq, r2]
      rintro ⟨i, -, j, -, ⟨hw, -⟩, -, hv⟩
      have : i = 2 := by
        by_contra h
        simp [gapField, h] at hv
      subst this
      norm_num at hw
    rw [r1, r3 hr]
    norm_num [Finset.sum_range_succ, hat, gapField, Miss.get, abs_of_pos, abs_of_neg]

/-- The same in space. -/
example : interp3dAt (Miss.machine exMachine) gapField3 3 3 3 (some (num 1)) (some (num 0))
    (some (num 0)) = .ok nan := by
  obtain ⟨r, r1, r2, -⟩ := C90_exact_3d exMachine_target (nx := 3) (ny := 3) (nz := 3)
    (by norm_num) (by norm_num) (by norm_num) (by norm_num) (v := gapField3) rfl (X := 1)
    (Y := 0) (Z := 0) (by constructor <;> norm_num) (by constructor <;> norm_num)
    (by constructor <;> norm_num)
  rw [r1, r2.2 ⟨2, by norm_num, 1, by norm_num, 0, by norm_num, by constructor <;> norm_num,
    by constructor <;> norm_num, by constructor <;> norm_num, by simp [gapField3]⟩]

/-! ## A run -/

/-- The samples: `(0, x)` with a gap at the origin. -/
noncomputable def bay (_ c a b : ℕ) : Miss ℝ :=
  if a = 0 ∧ b = 0 then nan else num (if c = 1 then a else 0)

/-- Two points, one on each line. -/
def seedPair (x y x' y' : ℝ) : NDArray (Miss ℝ) :=
  ⟨[2, 2], fun i => num (if i.headD 0 = 0 then (if i.getD 1 0 = 0 then x else y)
    else if i.getD 1 0 = 0 then x' else y')⟩

noncomputable def bayFiles : MatFS (Miss ℝ) := fun path =>
  if path = "c0" ∨ path = "c1" then some fun key =>
    if key = "coordinate_x" then some (listing (5 * 5) fun q => num (0 + (q % 5 : ℕ) * 1))
    else if key = "coordinate_y" then some (listing (5 * 5) fun q => num (0 + (q / 5 : ℕ) * 1))
    else none
  else if path = "v0" ∨ path = "v1" then some fun key =>
    if key = "velocity_x" then some (listing (5 * 5) fun q => bay 0 0 (q % 5) (q / 5))
    else if key = "velocity_y" then some (listing (5 * 5) fun q => bay 0 1 (q % 5) (q / 5))
    else none
  else if path = "p" then some fun key =>
    if key = "left" then some (seedPair 2 2 0 (1 / 2))
    else if key = "right" then some (seedPair 3 2 1 (1 / 2))
    else if key = "top" then some (seedPair (5 / 2) (5 / 2) (1 / 2) 1)
    else if key = "bottom" then some (seedPair (5 / 2) (3 / 2) (1 / 2) 0)
    else none
  else none

noncomputable def bayEnv : Env (Miss ℝ) FVal := { missEnv with
  fs := bayFiles
  m := x86Miss }

noncomputable def baySource : FileSource (Miss ℝ) :=
  ⟨["v0", "v1"], ["c0", "c1"], "p", num (1 / 100), "v0", false⟩

theorem bay_grid : MaskedGrid bayFiles baySource 5 5 0 1 0 1 bay where
  fresh := rfl
  hnx := by norm_num
  hny := by norm_num
  lnx := by norm_num
  lny := by norm_num
  hdx := by norm_num
  hdy := by norm_num
  data := by
    intro j hj
    have hj : j < 2 := hj
    obtain ⟨fv, v1, v2⟩ : ∃ f, baySource.snapshotFiles[j]? = some f ∧ (f = "v0" ∨ f = "v1") := by
      interval_cases j
      · exact ⟨"v0", rfl, .inl rfl⟩
      · exact ⟨"v1", rfl, .inr rfl⟩
    obtain ⟨fc, c1, c2⟩ : ∃ f, baySource.coordinateFiles[j]? = some f ∧ (f = "c0" ∨ f = "c1") := by
      interval_cases j
      · exact ⟨"c0", rfl, .inl rfl⟩
      · exact ⟨"c1", rfl, .inr rfl⟩
    obtain ⟨V, a1, a2, a3, a4⟩ := stack_two (5 * 5) (fun q => bay 0 0 (q % 5) (q / 5))
      (fun q => bay 0 1 (q % 5) (q / 5))
    obtain ⟨P, b1, b2, b3, b4⟩ := stack_two (5 * 5) (fun q => num (0 + (q % 5 : ℕ) * (1 : ℝ)))
      (fun q => num (0 + (q / 5 : ℕ) * (1 : ℝ)))
    have hV : readVelocity bayFiles fv = .ok V := by
      rw [← a1]
      rcases v2 with rfl | rfl <;> simp [readVelocity, loadmat, bayFiles, readComponents]
    have hP : readCoordinate bayFiles fc = .ok P := by
      rw [← b1]
      rcases c2 with rfl | rfl <;> simp [readCoordinate, loadmat, bayFiles, readComponents]
    refine ⟨V, P, ⟨⟨fv, v1, hV⟩, ⟨fc, c1, hP⟩⟩, a2, b2, ?_, ?_⟩
    · intro a ha b hb
      rw [b3, b4, Nat.add_mul_mod_self_left, Nat.mod_eq_of_lt ha,
        Nat.add_mul_div_left _ _ (by norm_num), Nat.div_eq_of_lt ha, Nat.zero_add]
      exact ⟨rfl, rfl⟩
    · intro a ha b hb c hc
      interval_cases c
      · rw [a3, Nat.add_mul_mod_self_left, Nat.mod_eq_of_lt ha,
          Nat.add_mul_div_left _ _ (by norm_num), Nat.div_eq_of_lt ha, Nat.zero_add]
        rfl
      · rw [a4, Nat.add_mul_mod_self_left, Nat.mod_eq_of_lt ha,
          Nat.add_mul_div_left _ _ (by norm_num), Nat.div_eq_of_lt ha, Nat.zero_add]
        rfl

/-- The seeds: stencils of width 1 around `(5/2, 2)` and `(1/2, 1/2)`. -/
noncomputable def baySeeds (i : ℕ) (b : Fin 4) : Fin 2 → ℝ :=
  if i = 0 then ![![2, 2], ![3, 2], ![5 / 2, 5 / 2], ![5 / 2, 3 / 2]] b
  else ![![0, 1 / 2], ![1, 1 / 2], ![1 / 2, 1], ![1 / 2, 0]] b

theorem bay_seeds : ∃ seed P, seed.shape = [4 * 2, 2] ∧ mkParticles seed = .ok P ∧
    readSeedParticles bayFiles "p" = .ok P ∧
    ∀ i < 2, groupOf seed 4 2 2 i = fun b c => num (baySeeds i b c) := by
  obtain ⟨A, a1, a2, a3⟩ := concat0_eq (m := 2) (rest := [2])
    [seedPair 2 2 0 (1 / 2),
      seedPair 3 2 1 (1 / 2),
      seedPair (5 / 2) (5 / 2) (1 / 2) 1,
      seedPair (5 / 2) (3 / 2) (1 / 2) 0] (by simp) (by simp [seedPair])
  obtain ⟨P, p1, -⟩ := mkParticles_2d (show A.shape = [4 * 2, 2] from a2)
  refine ⟨A, P, a2, p1, ?_, fun i hi => ?_⟩
  · simp [-one_div, readSeedParticles, loadmat, bayFiles, a1, p1]
  · have g : ∀ (b : Fin 4) (c : Fin 2), A.get [b.1 * 2 + i, c.1] = (![seedPair 2 2 0 (1 / 2),
        seedPair 3 2 1 (1 / 2), seedPair (5 / 2) (5 / 2) (1 / 2) 1,
        seedPair (5 / 2) (3 / 2) (1 / 2) 0] b).get [i, c.1] := by
      intro b c
      have := a3 b.1 (by simp) i [c.1] hi
      fin_cases b <;> exact this
    funext b c
    change A.get [b.1 * 2 + i, c.1] = _
    rw [g b c]
    interval_cases i <;> fin_cases b <;> fin_cases c <;> rfl

theorem bay_separate : ∀ i < 2, Separate2 (baySeeds i) := by
  intro i hi
  interval_cases i
  · exact ⟨show (3 : ℝ) ≠ 2 by norm_num, show (5 / 2 : ℝ) ≠ 3 / 2 by norm_num⟩
  · exact ⟨show (1 : ℝ) ≠ 0 by norm_num, show (1 : ℝ) ≠ 0 by norm_num⟩

theorem bay_value {X Y : ℝ} (hX : InCells 5 X) (hY : InCells 5 Y) :
    cellValue2 5 5 (fun a b => (bay 0 1 a b).get) X Y = X := by
  have e : ∀ a b, (bay 0 1 a b).get = (a : ℝ) := by
    intro a b
    unfold bay
    split
    · rename_i h
      simp [h.1, Miss.get]
    · simp [Miss.get]
  unfold cellValue2
  rw [if_pos ⟨hX, hY⟩]
  simp only [e, lerp]
  push_cast
  ring

/-- Every velocity is missing or `(0, w)`, `0 ≤ w ≤ 4`. -/
theorem bay_flow (z : Fin 2 → Miss ℝ) :
    (maskedFlow 5 5 0 1 0 1 (bay 0) z 0 = nan ∨ maskedFlow 5 5 0 1 0 1 (bay 0) z 0 = num 0) ∧
    (maskedFlow 5 5 0 1 0 1 (bay 0) z 1 = nan ∨
      ∃ w, 0 ≤ w ∧ w ≤ 4 ∧ maskedFlow 5 5 0 1 0 1 (bay 0) z 1 = num w) := by
  unfold maskedFlow
  cases z 0 with
  | nan => exact ⟨.inr rfl, .inr ⟨0, le_rfl, by norm_num, rfl⟩⟩
  | num x =>
    cases z 1 with
    | nan => exact ⟨.inr rfl, .inr ⟨0, le_rfl, by norm_num, rfl⟩⟩
    | num y =>
      simp only [maskedValue]
      constructor
      · split
        · rename_i hc
          split
          · exact .inl rfl
          · right
            congr 1
            have e : ∀ a b, (bay 0 ((0 : Fin 2) : ℕ) a b).get = (0 : ℝ) := by
              intro a b
              unfold bay
              split <;> simp [Miss.get]
            unfold cellValue2
            rw [if_pos hc]
            simp only [e, lerp]
            ring
        · exact .inr rfl
      · split
        · rename_i hc
          split
          · exact .inl rfl
          · refine .inr ⟨_, ?_, ?_, rfl⟩
            · have := bay_value hc.1 hc.2
              refine le_of_le_of_eq hc.1.1 this.symm
            · have := bay_value hc.1 hc.2
              refine this.trans_le ?_
              have := hc.1.2
              norm_num at this ⊢
              linarith
        · exact .inr ⟨0, le_rfl, by norm_num, rfl⟩

/-- Positions stay in their column and below `y + 4 j / 100`, or are lost. -/
theorem bay_positions (x : Fin 2 → ℝ) (j : ℕ) :
    (∀ a, flowMap .euler (fun _ => maskedFlow 5 5 0 1 0 1 (bay 0)) (num (1 / 100)) j
      (fun c => num (x c)) 0 = num a → a = x 0) ∧
    ∀ a, flowMap .euler (fun _ => maskedFlow 5 5 0 1 0 1 (bay 0)) (num (1 / 100)) j
      (fun c => num (x c)) 1 = num a → a ≤ x 1 + j * (4 / 100) := by
  induction j with
  | zero =>
    refine ⟨fun a h => ?_, fun a h => ?_⟩
    · cases h; rfl
    · cases h; simp
  | succ j ih =>
    rw [flowMap_succ]
    set z := flowMap .euler (fun _ => maskedFlow 5 5 0 1 0 1 (bay 0)) (num (1 / 100)) j
      (fun c => num (x c))
    obtain ⟨h0, h1⟩ := bay_flow z
    constructor
    · intro a (ha : z 0 + num (1 / 100) * maskedFlow 5 5 0 1 0 1 (bay 0) z 0 = num a)
      rcases h0 with h0 | h0
      · rw [h0] at ha; simp at ha
      · rw [h0] at ha
        cases e : z 0 with
        | nan => rw [e] at ha; simp at ha
        | num b =>
          rw [e] at ha
          simp only [num_mul, num_add, mul_zero, add_zero, Miss.num.injEq] at ha
          rw [← ha]
          exact ih.1 b e
    · intro a (ha : z 1 + num (1 / 100) * maskedFlow 5 5 0 1 0 1 (bay 0) z 1 = num a)
      rcases h1 with h1 | ⟨w, -, hw, h1⟩
      · rw [h1] at ha; simp at ha
      · rw [h1] at ha
        cases e : z 1 with
        | nan => rw [e] at ha; simp at ha
        | num b =>
          rw [e] at ha
          simp only [num_mul, num_add, Miss.num.injEq] at ha
          have := ih.2 b e
          rw [← ha]
          push_cast
          linarith

/-- The first group keeps away from the gap and has an exponent; the second starts in the cell with
the gap and gets NaN. -/
example (queue : Bool) : ∃ v, ((⟨.file baySource, .highPerf (HighPerf.fresh [5, 5]), .fresh .euler⟩ :
      Solver (Miss ℝ)).run bayEnv queue none).result = .ok (some [v, .nan]) ∧ v ≠ .nan := by
  obtain ⟨seed, P, s1, s2, s3, s4⟩ := bay_seeds
  obtain ⟨L, h1, h2⟩ := C91_masked_run (env := bayEnv) ⟨fun _ => rfl, rfl, rfl⟩ rfl
    (s := baySource) bay_grid .euler queue (N := 2) s1 s2 s3 baySeeds s4
    bay_separate
    (h := 1 / 100) rfl (by norm_num) (by decide)
    (fun i hi b j hj z hz => by
      have hj : j < 2 := hj
      simp only [stages, List.mem_singleton] at hz
      obtain ⟨p0, p1⟩ := bay_positions (baySeeds i b) j
      have q : baySeeds i b 0 ≤ 3 ∧ baySeeds i b 1 ≤ 3 := by
        interval_cases i <;> fin_cases b <;> norm_num [baySeeds]
      have hj' : (j : ℝ) ≤ 1 := by exact_mod_cast (by omega : j ≤ 1)
      have lim : ∀ a : ℝ, a ≤ 4 → ⌊(a - 0) / 1⌋ ≠ intLim - 1 := by
        intro a ha
        have : ⌊(a - 0) / 1⌋ ≤ 4 := by
          rw [sub_zero, div_one, ← Int.floor_ofNat (R := ℝ) 4]
          exact Int.floor_le_floor ha
        have h : (4 : ℤ) < intLim - 1 := by norm_num
        omega
      subst hz
      refine ⟨fun a ha => lim a ?_, fun a ha => lim a ?_⟩
      · rw [p0 a ha]; linarith [q.1]
      · have := p1 a ha
        linarith [q.2])
  have hL1 : L 1 = .nan := by
    refine (h2 1 (by norm_num)).1.2 ⟨3, 0, by decide, baySeeds 1 3, ?_, ?_⟩
    · exact List.mem_singleton.2 rfl
    · have v0 : baySeeds 1 3 0 = 1 / 2 := rfl
      have v1 : baySeeds 1 3 1 = 0 := rfl
      refine ⟨by constructor <;> norm_num [v0, v1], by constructor <;> norm_num [v0, v1],
        0, by norm_num, 0, by norm_num, 0, by norm_num, ?_⟩
      have e0 : cellOf ((baySeeds 1 3 0 - 0) / 1) = 0 := by
        have : ⌊(baySeeds 1 3 0 - 0) / 1⌋ = 0 := by
          rw [Int.floor_eq_iff]; constructor <;> norm_num [v0, v1]
        rw [cellOf, this]; rfl
      have e1 : cellOf ((baySeeds 1 3 1 - 0) / 1) = 0 := by
        have : ⌊(baySeeds 1 3 1 - 0) / 1⌋ = 0 := by
          rw [Int.floor_eq_iff]; constructor <;> norm_num [v0, v1]
        rw [cellOf, this]; rfl
      rw [e0, e1]
      simp [bay]
  have hL0 : L 0 ≠ .nan := by
    rw [ne_eq, (h2 0 (by norm_num)).1]
    rintro ⟨b, j, hj, y, hy, -, -, c, -, a, -, b', -, hn⟩
    simp only [stages, List.mem_singleton] at hy
    have h0 := (bay_positions (baySeeds 0 b) j).1 (y 0) (congrFun hy 0).symm
    have q : 2 ≤ baySeeds 0 b 0 := by
      fin_cases b <;> norm_num [baySeeds]
    have : 2 ≤ cellOf ((y 0 - 0) / 1) := by
      rw [h0, sub_zero, div_one, cellOf]
      have : (2 : ℤ) ≤ ⌊baySeeds 0 b 0⌋ := by
        rw [Int.le_floor]; exact_mod_cast q
      omega
    unfold bay at hn
    rw [if_neg (by omega)] at hn
    cases hn
  exact ⟨L 0, by rw [h1, ← hL1]; rfl, hL0⟩

end Verif
