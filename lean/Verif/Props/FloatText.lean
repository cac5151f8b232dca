import Verif.Lemmas.FloatText
import Verif.Lemmas.Monotone64
import Verif.Lemmas.Swap
import Verif.Props.FieldCount

/-!
# C118: the numbers on the command line

`--snapshot_timestep` and `--flow_map_period` are read by Python's `float`
(hyperparameters.py:192-205).
-/

namespace Verif

variable {cd : CharData}

/-- **C118** (reading).  A text is accepted as a number exactly when it is a floating-point literal
of the Python reference; its value is the nearest binary64 number. -/
theorem C118_reads (hl : cd.Lawful) (hp : cd.PlainLetters) (s : Str) (x : PyFloat) :
    ValueOf cd (readFloat cd) .snapshotTimestep s x ↔ FloatLiteral cd s x :=
  readFloat_iff hl hp s x

/-- **C118** (decimal numbers).  A literal of the decimal number `q` is read as the binary64 number
next to `q`, and as an infinity exactly if that is out of range. -/
theorem C118_decimal (hl : cd.Lawful) (hp : cd.PlainLetters) {s : Str} {q : ℚ}
    (h : DecimalLiteral cd s q) :
    (|rne q| < 2 ^ 1024 → float64 cd s = some ⟨rne q⟩) ∧
      (2 ^ 1024 ≤ |rne q| → readFloat cd s = some (.inf (decide (q < 0)))) := by
  obtain ⟨pre, sign, m, ex, post, σ, ds, fs, e, rfl, h1, h2, h3, h4, h5, rfl⟩ := h
  set q : ℚ := σ * ((decimal ds + decimal fs / 10 ^ fs.length) * (10 : ℚ) ^ e) with hq
  have key : ∀ x, Nearest64 q x →
      readFloat cd (pre ++ sign ++ (m ++ ex) ++ post) = some x := fun x hx =>
    (readFloat_iff hl hp _ x).2 ⟨pre, sign, m ++ ex, post, σ, rfl, h1, h2, h3,
      .inl ⟨m, ex, ds, fs, e, rfl, h4, h5, hx⟩⟩
  constructor
  · intro h
    have := key (.num ⟨rne q⟩) ⟨rfl, h⟩
    unfold float64
    rw [this]
  · intro h
    exact key _ ⟨h, by simp⟩

/-- Two numbers of the grid differ by at least `2^-53` of the greater one. -/
theorem grid_gap_rel {a b : ℚ} (ha : OnGrid a) (hb : OnGrid b) (hab : a < b) (hb0 : 0 < b) :
    b * (2 : ℚ) ^ (-53 : ℤ) ≤ b - a := by
  obtain ⟨m, e, hm, -, rfl⟩ := ha
  obtain ⟨n, f, hn, -, rfl⟩ := hb
  have h53 : (2 : ℚ) ^ (-53 : ℤ) = 1 / 2 ^ 53 := by norm_num
  have hn' : (n : ℚ) < 2 ^ 53 := by
    have := (abs_lt.1 hn).2
    exact_mod_cast this
  have hm' : (m : ℚ) ≤ 2 ^ 53 - 1 := by
    have := (abs_lt.1 hm).2
    have : m ≤ 2 ^ 53 - 1 := by omega
    exact_mod_cast this
  rw [h53, mul_one_div, div_le_iff₀ (by positivity)]
  rcases le_total f e with h | h
  · -- the greater number has the coarser grid or the same
    obtain ⟨k, rfl⟩ : ∃ k : ℕ, e = f + k := ⟨(e - f).toNat, by omega⟩
    rw [zpow_add₀ (by norm_num), zpow_natCast] at hab ⊢
    have hf : (0 : ℚ) < 2 ^ f := by positivity
    have h1 : (m : ℚ) * 2 ^ k < n := by
      rw [← mul_lt_mul_iff_of_pos_right hf]
      linarith [mul_comm ((2 : ℚ) ^ f) (2 ^ k), mul_assoc (m : ℚ) (2 ^ k) ((2 : ℚ) ^ f)]
    have h2 : (m : ℚ) * 2 ^ k + 1 ≤ n := by
      have : m * 2 ^ k < n := by exact_mod_cast h1
      have : m * 2 ^ k + 1 ≤ n := by omega
      exact_mod_cast this
    have h3 : (n : ℚ) * 2 ^ f - m * (2 ^ f * 2 ^ k) = (n - m * 2 ^ k) * 2 ^ f := by ring
    rw [h3]
    nlinarith
  · obtain ⟨k, rfl⟩ : ∃ k : ℕ, f = e + k := ⟨(f - e).toNat, by omega⟩
    rw [zpow_add₀ (by norm_num), zpow_natCast] at hab ⊢
    have he : (0 : ℚ) < 2 ^ e := by positivity
    have h1 : (m : ℚ) < n * 2 ^ k := by
      rw [← mul_lt_mul_iff_of_pos_right he]
      linarith [mul_comm ((2 : ℚ) ^ e) (2 ^ k), mul_assoc (n : ℚ) (2 ^ k) ((2 : ℚ) ^ e)]
    have h2 : (m : ℚ) + 1 ≤ n * 2 ^ k := by
      have : m < n * 2 ^ k := by exact_mod_cast h1
      have : m + 1 ≤ n * 2 ^ k := by omega
      exact_mod_cast this
    have h3 : (n : ℚ) * (2 ^ e * 2 ^ k) - m * 2 ^ e = (n * 2 ^ k - m) * 2 ^ e := by ring
    have h4 : (n : ℚ) * (2 ^ e * 2 ^ k) = (n * 2 ^ k) * 2 ^ e := by ring
    rw [h3, h4, mul_assoc _ ((2 : ℚ) ^ e), mul_comm ((2 : ℚ) ^ e), ← mul_assoc]
    apply mul_le_mul_of_nonneg_right _ he.le
    generalize (n : ℚ) * 2 ^ k = b at h2
    rcases le_total b (2 ^ 53) with hb | hb
    · nlinarith
    · nlinarith

/-- **C118** (seventeen digits).  A binary64 number written with 17 significant digits (as `%.16e`,
`%.17g` do; `repr` writes no less than needed) is read as itself: a script that computes the time step
hands it to the program without loss. -/
theorem C118_seventeen_digits (hl : cd.Lawful) (hp : cd.PlainLetters) {s : Str} {x q : ℚ}
    (hx : IsB64 x) {k : ℤ} (hk : (10 : ℚ) ^ k ≤ |x|) (hq : |q - x| ≤ (10 : ℚ) ^ (k - 16) / 2)
    (h : DecimalLiteral cd s q) : float64 cd s = some ⟨x⟩ := by
  have hgx : OnGrid x := by
    obtain ⟨m, e, h1, h2, -, h3⟩ := hx
    exact ⟨m, e, h1, h2, h3⟩
  have hmax : |x| < 2 ^ 1024 := by
    obtain ⟨m, e, h1, -, h2, rfl⟩ := hx
    have hm : |(m : ℚ)| < 2 ^ 53 := by exact_mod_cast h1
    rw [abs_mul, abs_of_pos (show (0 : ℚ) < 2 ^ e by positivity)]
    calc |(m : ℚ)| * 2 ^ e < 2 ^ 53 * 2 ^ e := mul_lt_mul_of_pos_right hm (by positivity)
      _ ≤ 2 ^ 53 * 2 ^ (971 : ℤ) := by
        apply mul_le_mul_of_nonneg_left _ (by positivity)
        exact zpow_le_zpow_right₀ (by norm_num) h2
      _ = 2 ^ 1024 := by
        rw [show (971 : ℤ) = ((971 : ℕ) : ℤ) from rfl, zpow_natCast, ← pow_add]
  have hclose : |q - x| ≤ |x| * (1 / (2 * 10 ^ 16)) := by
    refine hq.trans ?_
    rw [zpow_sub₀ (by norm_num)]
    have : (10 : ℚ) ^ (16 : ℤ) = 10 ^ 16 := by norm_num
    rw [this]
    have h2 : (10 : ℚ) ^ k / 10 ^ 16 / 2 = 10 ^ k * (1 / (2 * 10 ^ 16)) := by ring
    rw [h2]
    exact mul_le_mul_of_nonneg_right hk (by norm_num)
  have hpos : 0 < |x| := lt_of_lt_of_le (by positivity) hk
  have key : ∀ x q : ℚ, OnGrid x → 0 < x → |q - x| ≤ x * (1 / (2 * 10 ^ 16)) → rne q = x := by
    intro x q hgx hx0 hc
    have hn := rne_nearest q hgx
    have h1 : |rne q - x| ≤ x * (1 / 10 ^ 16) := by
      have := abs_sub_le (rne q) q x
      have hs : |x - q| = |q - x| := abs_sub_comm x q
      have : |rne q - x| ≤ x * (1 / (2 * 10 ^ 16)) + x * (1 / (2 * 10 ^ 16)) := by linarith
      linarith
    have h53 : (2 : ℚ) ^ (-53 : ℤ) = 1 / 2 ^ 53 := by norm_num
    rcases lt_trichotomy (rne q) x with h | h | h
    · have hg := grid_gap_rel (onGrid_rne q) hgx h hx0
      rw [abs_sub_comm, abs_of_pos (by linarith)] at h1
      rw [h53] at hg
      linarith
    · exact h
    · have hg := grid_gap_rel hgx (onGrid_rne q) h (hx0.trans h)
      rw [abs_of_pos (by linarith)] at h1
      rw [h53] at hg
      linarith
  have hr : rne q = x := by
    rcases lt_or_gt_of_ne (abs_pos.1 hpos) with h0 | h0
    · rw [abs_of_neg h0] at hclose
      have := key (-x) (-q) ?_ (by linarith) (by
        rw [show -q - -x = -(q - x) by ring, abs_neg]
        exact hclose)
      · rw [rne_neg] at this
        linarith
      · obtain ⟨m, e, h1, h2, h3⟩ := hgx
        exact ⟨-m, e, by rwa [abs_neg], h2, by rw [h3]; push_cast; ring⟩
    · rw [abs_of_pos h0] at hclose
      exact key x q hgx h0 hclose
  rw [← hr]
  exact (C118_decimal hl hp h).1 (by rw [hr]; exact hmax)

/-- **C118** (what the program does with any two accepted numbers).  The number of snapshots of a
window exists exactly if the period is finite and the time step is a finite number other than 0 whose
quotient is in range, or infinite. -/
theorem C118_snapshots_iff (T h : PyFloat) (n : ℤ) : snapshotsOf T h = .ok n ↔
    (∃ x y q, T = .num x ∧ h = .num y ∧ y.val ≠ 0 ∧ b64 (x.val / |y.val|) = some q ∧
      n = truncInt q + 1) ∨ ∃ x s, T = .num x ∧ h = .inf s ∧ n = 1 := by
  cases h with
  | num y =>
    cases T with
    | num x =>
      simp only [snapshotsOf, snapshotsPerPeriod]
      by_cases h0 : y.val = 0
      · simp [h0]
      · rw [if_neg h0]
        cases hb : b64 (x.val / |y.val|) with
        | none => simp [hb]
        | some q => simp [hb, h0, eq_comm]
    | inf s =>
      simp only [snapshotsOf]
      split <;> simp
    | nan =>
      simp only [snapshotsOf]
      split <;> simp
  | inf s =>
    cases T <;> simp [snapshotsOf, eq_comm]
  | nan => simp [snapshotsOf]

/-- **C118** (numbers without a meaning).  The words `inf` and `nan` and zero are
accepted as numbers.  An infinite time step makes windows of one snapshot; the others end the program
with `ValueError`, `OverflowError` or `ZeroDivisionError` after the parser. -/
theorem C118_words :
    readFloat asciiData "inf".toList = some (.inf false) ∧
    readFloat asciiData "-Infinity".toList = some (.inf true) ∧
    readFloat asciiData "NaN".toList = some .nan ∧
    readFloat asciiData "1e999".toList = some (.inf false) ∧
    readFloat asciiData "0".toList = some (.num ⟨0⟩) ∧
    (∀ (x : Fl) s, snapshotsOf (.num x) (.inf s) = .ok 1) ∧
    (∀ T, snapshotsOf T .nan = .error .valueError) ∧
    (∀ T, snapshotsOf T (.num ⟨0⟩) = .error .zeroDivisionError) ∧
    (∀ (y : Fl), y.val ≠ 0 → snapshotsOf .nan (.num y) = .error .valueError ∧
      ∀ s, snapshotsOf (.inf s) (.num y) = .error .overflowError) := by
  refine ⟨by decide +kernel, by decide +kernel, by decide +kernel, by decide +kernel,
    by decide +kernel, fun _ _ => rfl, fun T => ?_, fun T => ?_, fun y hy => ⟨?_, fun s => ?_⟩⟩
  · cases T <;> rfl
  · cases T <;> simp [snapshotsOf, snapshotsPerPeriod]
  · simp [snapshotsOf, hy]
  · simp [snapshotsOf, hy]

/-- **C118** (number of fields).  For every call whose two options are literals of decimal numbers,
the period being `k` time steps: the number of fields is the documented one or larger by one, see
`C117_decimal_partial`. -/
theorem C118_fields (hl : cd.Lawful) (hp : cd.PlainLetters) (texts : Str → Option Str)
    {l : List (Opt × Str)} {q : Experiment Fl}
    (hq : Asks cd (float64 cd) texts (fun T h => snapshotsPerPeriod T.val h.val) l q)
    (hsens : q.Sensible) {vT vh : Str} (hT : LastValue l .flowMapPeriod vT)
    (hh : LastValue l .snapshotTimestep vh) {xT xh : ℚ} (dT : DecimalLiteral cd vT xT)
    (dh : DecimalLiteral cd vh xh) (hsmall : (2 : ℚ) ^ (-1022 : ℤ) ≤ |xh|)
    (hlarge : |rne xT| < 2 ^ 1024) (hlarge' : |rne xh| < 2 ^ 1024)
    (k : ℕ) (hk : 0 < k) (hk49 : k ≤ 2 ^ 49) (hTk : xT = k * |xh|) :
    (q.snapshots = k + 1 ∧ (q.fields : ℚ) = q.velocity.length - xT / |xh|) ∨
      q.snapshots = k ∧ (q.fields : ℚ) = q.velocity.length - xT / |xh| + 1 :=
  C117_decimal_partial cd (float64 cd) texts Fl.val hq hsens hT hh ((C118_decimal hl hp dT).1 hlarge)
    ((C118_decimal hl hp dh).1 hlarge') rfl rfl hsmall k hk hk49 hTk

/-! ## Examples -/

theorem asciiData_plainLetters : asciiData.PlainLetters := by
  unfold CharData.PlainLetters
  decide +kernel

/-- `0.1`, one tenth. -/
theorem tenth_literal : DecimalLiteral asciiData "0.1".toList (1 / 10) :=
  ⟨[], [], "0.1".toList, [], [], 1, [0], [1], 0, rfl, by simp, by simp, .none,
    .both (a := ['0']) (b := ['1']) (.one (by decide)) (.one (by decide)), .none, by
      norm_num [decimal]⟩

/-- `-1_0.e-1`, minus one. -/
example : DecimalLiteral asciiData "-1_0.e-1 ".toList (-1) :=
  ⟨[], ['-'], "1_0.".toList, "e-1".toList, [' '], -1, [1, 0], [], -1, rfl, by simp, by decide, .minus,
    .point (a := "1_0".toList) (.underscore (by decide) (.one (by decide))),
    .some (σ := -1) (ds := [1]) (sign := ['-']) (body := ['1']) (.inl rfl) .minus (.one (by decide)), by
      simp [decimal, List.range_succ]⟩

/-- The hypotheses of `C118_seventeen_digits` are satisfiable: one half written as `0.5`. -/
example : float64 asciiData "0.5".toList = some ⟨1 / 2⟩ :=
  C118_seventeen_digits (q := 1 / 2) (k := -1) asciiData_lawful asciiData_plainLetters
    ⟨1, -1, by norm_num, by norm_num, by norm_num, by norm_num⟩ (by norm_num) (by norm_num)
    ⟨[], [], "0.5".toList, [], [], 1, [0], [5], 0, rfl, by simp, by simp, .none,
      .both (a := ['0']) (b := ['5']) (.one (by decide)) (.one (by decide)), .none, by
        norm_num [decimal]⟩

/-- The hypotheses of `C118_fields` are satisfiable. -/
example := C118_fields asciiData_lawful asciiData_plainLetters (countTexts 100)
  (countAsks 100 text_01 text_001 (n := 11) (by decide +kernel)) (countSensible _ (by norm_num)
    (by norm_num)) (countLast _ _).1 (countLast _ _).2 tenth_literal (xh := 1 / 100)
  ⟨[], [], "0.01".toList, [], [], 1, [0], [0, 1], 0, rfl, by simp, by simp, .none,
    .both (a := ['0']) (b := ['0', '1']) (.one (by decide)) (.cons (by decide) (.one (by decide))),
    .none, by norm_num [decimal, List.range_succ]⟩
  (le_trans (zpow_le_zpow_right₀ (by norm_num) (by norm_num : (-1022 : ℤ) ≤ -7))
    (by rw [abs_of_pos (by norm_num)]; norm_num)) (by decide +kernel) (by decide +kernel) 10
  (by norm_num) (by norm_num) (by rw [abs_of_pos (by norm_num)]; norm_num)

end Verif
