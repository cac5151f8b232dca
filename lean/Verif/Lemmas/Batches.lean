import Verif.Model.Batches
import Verif.Model.Names
import Verif.Lemmas.Jacobian
import Mathlib.Data.List.GetD
import Mathlib.Tactic.Linarith

/-!
# Lemmas about cycling, slicing and names
-/

namespace Verif

theorem cycleFrom_length {α : Type*} {l : List α} (hl : l ≠ []) :
    ∀ (k : ℕ) (cur : List α), (cycleFrom l cur k).length = k := by
  intro k
  induction k with
  | zero => intro cur; cases cur <;> rfl
  | succ k ih =>
    intro cur
    cases cur with
    | cons a t => simp [cycleFrom, ih]
    | nil =>
      cases l with
      | nil => exact absurd rfl hl
      | cons a t => simp [cycleFrom, ih]

theorem cycleFrom_getElem {α : Type*} {l : List α} (hl : l ≠ []) :
    ∀ (k d : ℕ), d ≤ l.length → ∀ j < k, (cycleFrom l (l.drop d) k)[j]? = l[(d + j) % l.length]? := by
  have hpos : 0 < l.length := List.length_pos_of_ne_nil hl
  intro k
  induction k with
  | zero => intro d _ j hj; omega
  | succ k ih =>
    intro d hd j hj
    rcases Nat.lt_or_ge d l.length with h | h
    · rw [List.drop_eq_getElem_cons h]
      cases j with
      | zero => simp [cycleFrom, Nat.mod_eq_of_lt h]
      | succ j =>
        simp only [cycleFrom, List.getElem?_cons_succ]
        rw [ih (d + 1) h j (by omega)]
        congr 2; omega
    · have hdl : d = l.length := le_antisymm hd h
      rw [List.drop_eq_nil_of_le h]
      obtain ⟨a, t, rfl⟩ := List.exists_cons_of_ne_nil hl
      cases j with
      | zero => simp [cycleFrom, hdl]
      | succ j =>
        simp only [cycleFrom, List.getElem?_cons_succ]
        have := ih 1 (by simp) j (by omega)
        rw [List.drop_one, List.tail_cons] at this
        rw [this]
        congr 1
        rw [hdl]
        rw [show (a :: t).length + (j + 1) = (1 + j) + (a :: t).length by omega,
          Nat.add_mod_right]

theorem isliceCycle_ok {α : Type*} {l : List α} (hl : l ≠ []) {k : ℤ} (hk : 0 ≤ k) :
    ∃ c, isliceCycle l k = .ok c ∧ c.length = k.toNat ∧
      ∀ j < k.toNat, c[j]? = l[j % l.length]? := by
  refine ⟨cycleFrom l l k.toNat, ?_, cycleFrom_length hl _ _, fun j hj => ?_⟩
  · rw [isliceCycle, if_neg (not_lt.2 hk)]
  · have := cycleFrom_getElem hl k.toNat 0 (Nat.zero_le _) j hj
    simpa using this

theorem pySlice_nat {α : Type*} (l : List α) {i p : ℕ} (h : i + p ≤ l.length) :
    pySlice l (i : ℤ) ((i : ℤ) + p) = (l.drop i).take p := by
  have h1 : sliceBound l.length (i : ℤ) = i := by unfold sliceBound; split <;> omega
  have h2 : sliceBound l.length ((i : ℤ) + p) = i + p := by unfold sliceBound; split <;> omega
  rw [pySlice, h1, h2]
  congr 1; omega

theorem take_drop_getElem {α : Type*} (l : List α) {i p k : ℕ} (hk : k < p) :
    ((l.drop i).take p)[k]? = l[i + k]? := by
  rw [List.getElem?_take_of_lt hk, List.getElem?_drop]

theorem pyMap_error_of {α β : Type*} {f : α → Py β} {l : List α} {a : α} (ha : a ∈ l)
    (h : ∃ e, f a = .error e) : ∃ e, pyMap f l = .error e := by
  induction l with
  | nil => cases ha
  | cons b l ih =>
    rcases List.mem_cons.1 ha with rfl | ha
    · obtain ⟨e, he⟩ := h
      exact ⟨e, by simp [pyMap, he]⟩
    · obtain ⟨e, he⟩ := ih ha
      cases hb : f b with
      | error e' => exact ⟨e', by simp [pyMap, hb]⟩
      | ok b' => exact ⟨e, by simp [pyMap, hb, he]⟩

theorem pyIndex_nat {α : Type*} (l : List α) (i : ℕ) :
    pyIndex l (i : ℤ) = match l[i]? with | some a => .ok a | none => .error .indexError := by
  unfold pyIndex
  have : ¬ ((i : ℤ) < 0) := by omega
  simp only [this, if_false, Int.toNat_natCast]
  cases l[i]? <;> rfl

/-! ## Names -/

theorem digitChar_inj {a b : ℕ} (ha : a < 10) (hb : b < 10) (h : Nat.digitChar a = Nat.digitChar b) :
    a = b := by
  rw [← Nat.toNat_digitChar_sub_48_of_lt_ten ha, h, Nat.toNat_digitChar_sub_48_of_lt_ten hb]

theorem toDigits_inj : ∀ {a b : ℕ}, Nat.toDigits 10 a = Nat.toDigits 10 b → a = b := by
  intro a
  induction a using Nat.strong_induction_on with
  | _ a ih =>
    intro b h
    rcases Nat.lt_or_ge a 10 with ha | ha <;> rcases Nat.lt_or_ge b 10 with hb | hb
    · rw [Nat.toDigits_of_lt_base ha, Nat.toDigits_of_lt_base hb] at h
      exact digitChar_inj ha hb (by simpa using h)
    · rw [Nat.toDigits_of_lt_base ha, Nat.toDigits_of_base_le (by norm_num) hb] at h
      have := congrArg List.length h
      have h2 := Nat.length_toDigits_pos (b := 10) (n := b / 10)
      simp at this
    · rw [Nat.toDigits_of_lt_base hb, Nat.toDigits_of_base_le (by norm_num) ha] at h
      have := congrArg List.length h
      have h2 := Nat.length_toDigits_pos (b := 10) (n := a / 10)
      simp at this
    · rw [Nat.toDigits_of_base_le (by norm_num) ha, Nat.toDigits_of_base_le (by norm_num) hb] at h
      obtain ⟨h1, h2⟩ := List.append_inj' h rfl
      have e1 := ih (a / 10) (by omega) h1
      have e2 := digitChar_inj (Nat.mod_lt _ (by norm_num)) (Nat.mod_lt _ (by norm_num))
        (List.cons.inj h2).1
      omega

theorem sixDigits_inj {a b : ℕ} (ha : a < 1000000) (hb : b < 1000000)
    (h : sixDigits a = sixDigits b) : a = b := by
  simp only [sixDigits, List.map_cons, List.map_nil, List.cons.injEq, and_true] at h
  obtain ⟨h1, h2, h3, h4, h5, h6⟩ := h
  have g1 := digitChar_inj (Nat.mod_lt _ (by norm_num)) (Nat.mod_lt _ (by norm_num)) h1
  have g2 := digitChar_inj (Nat.mod_lt _ (by norm_num)) (Nat.mod_lt _ (by norm_num)) h2
  have g3 := digitChar_inj (Nat.mod_lt _ (by norm_num)) (Nat.mod_lt _ (by norm_num)) h3
  have g4 := digitChar_inj (Nat.mod_lt _ (by norm_num)) (Nat.mod_lt _ (by norm_num)) h4
  have g5 := digitChar_inj (Nat.mod_lt _ (by norm_num)) (Nat.mod_lt _ (by norm_num)) h5
  have g6 := digitChar_inj (Nat.mod_lt _ (by norm_num)) (Nat.mod_lt _ (by norm_num)) h6
  omega

theorem toDigits_head_ne_minus (n : ℕ) (l : List Char) : ∀ r, Nat.toDigits 10 n ++ l ≠ '-' :: r := by
  intro r h
  have hne := Nat.toDigits_ne_nil (n := n) (b := 10)
  obtain ⟨c, t, hc⟩ := List.exists_cons_of_ne_nil hne
  rw [hc, List.cons_append, List.cons.injEq] at h
  have := Nat.isDigit_of_mem_toDigits (b := 10) (n := n) (c := c) (by norm_num) (by norm_num)
    (by rw [hc]; simp)
  rw [h.1] at this
  exact absurd this (by decide)

theorem formatTime_inj {b b' : Bool} {m m' : ℚ} (h : formatTime b m = formatTime b' m') :
    b = b' ∧ (roundEven (m * 1000000)).toNat = (roundEven (m' * 1000000)).toNat := by
  unfold formatTime at h
  dsimp only at h
  have h := String.ofList_injective h
  set n := (roundEven (m * 1000000)).toNat
  set n' := (roundEven (m' * 1000000)).toNat
  have core : ∀ {x y : ℕ}, Nat.toDigits 10 (x / 1000000) ++ '.' :: sixDigits (x % 1000000) =
      Nat.toDigits 10 (y / 1000000) ++ '.' :: sixDigits (y % 1000000) → x = y := by
    intro x y hxy
    obtain ⟨h1, h2⟩ := List.append_inj' hxy rfl
    have e1 := toDigits_inj h1
    have e2 := sixDigits_inj (Nat.mod_lt _ (by norm_num)) (Nat.mod_lt _ (by norm_num))
      (List.cons.inj h2).2
    omega
  cases b <;> cases b'
  · exact ⟨rfl, core (by simpa using h)⟩
  · simp only [Bool.false_eq_true, if_false, if_true, List.nil_append, List.cons_append] at h
    exact absurd h (toDigits_head_ne_minus _ _ _)
  · simp only [Bool.false_eq_true, if_false, if_true, List.nil_append, List.cons_append] at h
    exact absurd h.symm (toDigits_head_ne_minus _ _ _)
  · exact ⟨rfl, core (by simpa using h)⟩

/-- Equal names: same sign bit and magnitudes at most one millionth apart. -/
theorem formatTime_close {b b' : Bool} {m m' : ℚ} (h0 : 0 ≤ m) (h0' : 0 ≤ m')
    (h : formatTime b m = formatTime b' m') : b = b' ∧ |m - m'| ≤ 1 / 1000000 := by
  obtain ⟨h1, h2⟩ := formatTime_inj h
  refine ⟨h1, ?_⟩
  have nn : ∀ {x : ℚ}, 0 ≤ x → 0 ≤ roundEven x := by
    intro x hx
    have := Int.floor_nonneg.2 hx
    unfold roundEven
    dsimp only
    split
    · exact this
    · split
      · omega
      · split <;> omega
  have e : roundEven (m * 1000000) = roundEven (m' * 1000000) := by
    have := nn (x := m * 1000000) (by positivity)
    have := nn (x := m' * 1000000) (by positivity)
    omega
  have a1 := abs_le.1 (roundEven_near (m * 1000000))
  have a2 := abs_le.1 (roundEven_near (m' * 1000000))
  rw [← e] at a2
  rw [abs_le]
  constructor <;> linarith [a1.1, a1.2, a2.1, a2.2]

end Verif
