import Verif.Spec.Turn
import Verif.Spec.Groups
import Verif.Lemmas.FlowOn
import Verif.Lemmas.Converge
import Verif.Lemmas.Swap

/-!
# Flow maps and difference quotients of turned experiments
-/

set_option linter.unusedSectionVars false

namespace Verif

instance {K : Type} [Field K] : MirrorLaws K where
  neg_neg := _root_.neg_neg
  neg_add a b := by ring
  neg_sub a b := by ring
  rev_sub a b := by ring
  mul_neg := _root_.mul_neg
  neg_div a b := by ring
  div_neg a b := by rw [_root_.div_neg]
  neg_zero a := neg_eq_zero

instance : Neg Fl := ⟨fun a => ⟨-a.val⟩⟩

instance : MirrorLaws Fl where
  neg_neg a := by
    show (⟨- -a.val⟩ : Fl) = a
    rw [_root_.neg_neg]
  neg_add a b := by
    show (⟨rne (-a.val + -b.val)⟩ : Fl) = ⟨-rne (a.val + b.val)⟩
    rw [← rne_neg]
    congr 2
    ring
  neg_sub a b := by
    show (⟨rne (-a.val - -b.val)⟩ : Fl) = ⟨-rne (a.val - b.val)⟩
    rw [← rne_neg]
    congr 2
    ring
  rev_sub a b := by
    show (⟨-rne (a.val - b.val)⟩ : Fl) = ⟨rne (b.val - a.val)⟩
    rw [← rne_neg]
    congr 2
    ring
  mul_neg a b := by
    show (⟨rne (a.val * -b.val)⟩ : Fl) = ⟨-rne (a.val * b.val)⟩
    rw [← rne_neg]
    congr 2
    ring
  neg_div a b := by
    show (⟨rne (-a.val / b.val)⟩ : Fl) = ⟨-rne (a.val / b.val)⟩
    rw [← rne_neg]
    congr 2
    ring
  div_neg a b := by
    show (⟨rne (a.val / -b.val)⟩ : Fl) = ⟨-rne (a.val / b.val)⟩
    rw [← rne_neg, _root_.div_neg]
  neg_zero a := by
    constructor
    · intro h
      have : -a.val = 0 := congrArg Fl.val h
      cases a
      simp only [neg_eq_zero] at this
      rw [this]
      rfl
    · rintro rfl
      show (⟨-0⟩ : Fl) = ⟨0⟩
      rw [_root_.neg_zero]

section
variable {K : Type} [Zero K] [One K] [Add K] [Sub K] [Mul K] [Div K] [Neg K] [MirrorLaws K]
  {d : ℕ}

theorem signed_add (b : Bool) (x y : K) : signed b x + signed b y = signed b (x + y) := by
  cases b
  · rfl
  · exact MirrorLaws.neg_add x y

theorem signed_sub (b : Bool) (x y : K) : signed b x - signed b y = signed b (x - y) := by
  cases b
  · rfl
  · exact MirrorLaws.neg_sub x y

theorem mul_signed (b : Bool) (c x : K) : c * signed b x = signed b (c * x) := by
  cases b
  · rfl
  · exact MirrorLaws.mul_neg c x

theorem signed_div (b : Bool) (x y : K) : signed b x / y = signed b (x / y) := by
  cases b
  · rfl
  · exact MirrorLaws.neg_div x y

theorem signed_zero (b : Bool) (x : K) : signed b x = 0 ↔ x = 0 := by
  cases b
  · rfl
  · exact MirrorLaws.neg_zero x

theorem signed_signed (b : Bool) (x : K) : signed b (signed b x) = x := by
  cases b
  · rfl
  · exact MirrorLaws.neg_neg x

section
variable [NumLits K]

theorem rowStep_turn (t : Turn d) (k : Kind) {g g' : (Fin d → K) → Fin d → K} {h : K}
    {p p' : Option (Fin d → K)} (hp : p' = p.map t.point) {x : Fin d → K}
    (hg : ∀ z ∈ stages k g h x, g' (t.point z) = t.point (g z)) :
    rowStep k g' h p' (t.point x) = t.point (rowStep k g h p x) ∧
    nextPrev k g' (t.point x) = (nextPrev k g x).map t.point ∧
    stages k g' h (t.point x) = (stages k g h x).map t.point := by
  subst hp
  have move : ∀ (c : K) (y : Fin d → K) (v : Fin d → K),
      (fun q => t.point y q + c * t.point v q) = t.point (fun q => y q + c * v q) := by
    intro c y v
    funext q
    simp only [Turn.point, mul_signed, signed_add]
  cases k with
  | euler =>
    have h0 := hg x (by simp [stages])
    exact ⟨by simp only [rowStep, h0, move], rfl, rfl⟩
  | ab2 =>
    have h0 := hg x (by simp [stages])
    refine ⟨?_, by simp only [nextPrev, h0, Option.map_some], rfl⟩
    cases p with
    | none => simp only [rowStep, h0, move, Option.map_none]
    | some v =>
      simp only [rowStep, h0, Option.map_some]
      funext q
      simp only [Turn.point, mul_signed, signed_add, signed_sub]
  | rk4 =>
    have h1 := hg x (by simp [stages])
    have h2 := hg (fun c => x c + (NumLits.half * h) * g x c) (by simp [stages])
    have h3 := hg (fun c => x c + (NumLits.half * h) *
      g (fun c => x c + (NumLits.half * h) * g x c) c) (by simp [stages])
    have h4 := hg (fun c => x c + h * g (fun c => x c + (NumLits.half * h) *
      g (fun c => x c + (NumLits.half * h) * g x c) c) c) (by simp [stages])
    refine ⟨?_, rfl, ?_⟩
    · simp only [rowStep, h1, move, h2, h3, h4]
      funext q
      simp only [Turn.point, mul_signed, signed_add]
    · simp only [stages, h1, move, h2, h3, List.map_cons, List.map_nil]

/-- In the turned velocity field the particles follow the turned trajectories. -/
theorem flowMap_turn (t : Turn d) (k : Kind) {g g' : ℕ → (Fin d → K) → Fin d → K} {h : K}
    {x : Fin d → K} (n : ℕ)
    (hg : ∀ j < n, ∀ z ∈ stages k (g j) h (flowMap k g h j x),
      g' j (t.point z) = t.point (g j z)) :
    flowMap k g' h n (t.point x) = t.point (flowMap k g h n x) ∧
    flowPrev k g' h (t.point x) n = (flowPrev k g h x n).map t.point := by
  induction n with
  | zero => exact ⟨rfl, rfl⟩
  | succ n ih =>
    obtain ⟨i1, i2⟩ := ih fun j hj => hg j (by omega)
    obtain ⟨s1, s2, -⟩ := rowStep_turn t k i2 (hg n (by omega))
    rw [flowMap_succ, flowMap_succ, i1]
    refine ⟨s1, ?_⟩
    simp only [flowPrev]
    rw [i1, s2]

/-- The points at which the velocity is evaluated are turned too. -/
theorem stages_turn (t : Turn d) (k : Kind) {g g' : ℕ → (Fin d → K) → Fin d → K} {h : K}
    {x : Fin d → K} (n : ℕ)
    (hg : ∀ j ≤ n, ∀ z ∈ stages k (g j) h (flowMap k g h j x),
      g' j (t.point z) = t.point (g j z)) :
    stages k (g' n) h (flowMap k g' h n (t.point x)) =
      (stages k (g n) h (flowMap k g h n x)).map t.point := by
  obtain ⟨i1, i2⟩ := flowMap_turn t k n fun j hj => hg j (by omega)
  rw [i1]
  exact (rowStep_turn t k i2 (hg n le_rfl)).2.2

end

section
variable [DecidableEq K]

theorem signed_pair (b : Bool) (X : Bool → K) (x : Bool → K) :
    (X (xor true b) - X (xor false b)) / (signed b (x (xor true b) - x (xor false b))) =
      signed b ((X true - X false) / (x true - x false)) := by
  cases b
  · rfl
  · simp only [Bool.true_xor, Bool.not_true, Bool.false_xor, signed, if_true]
    rw [MirrorLaws.rev_sub, ← MirrorLaws.neg_div, MirrorLaws.rev_sub]

theorem signed_pair_zero (b : Bool) (x : Bool → K) :
    signed b (x (xor true b) - x (xor false b)) = 0 ↔ x true - x false = 0 := by
  cases b
  · rfl
  · simp only [Bool.true_xor, Bool.not_true, Bool.false_xor, signed, if_true]
    rw [MirrorLaws.rev_sub]

theorem signed_comm (a b : Bool) (x : K) : signed a (signed b x) = signed b (signed a x) := by
  cases a <;> cases b <;> rfl

/-- One entry of the matrix of difference quotients. -/
def quotient2 (X x : Fin 4 → Fin 2 → K) (r q : Fin 2) : K :=
  (X (end2 q true) r - X (end2 q false) r) / (x (end2 q true) q - x (end2 q false) q)

def quotient3 (X x : Fin 6 → Fin 3 → K) (r q : Fin 3) : K :=
  (X (end3 q true) r - X (end3 q false) r) / (x (end3 q true) q - x (end3 q false) q)

theorem centralDiff2_eq (X x : Fin 4 → Fin 2 → K) : centralDiff2 X x =
    if ∃ q, x (end2 q true) q - x (end2 q false) q = 0 then .error .zeroDivisionError
    else .ok (quotient2 X x) := by
  unfold centralDiff2
  have : (∃ q, x (end2 q true) q - x (end2 q false) q = 0) ↔
      (x 1 0 - x 0 0 = 0 ∨ x 2 1 - x 3 1 = 0) := by
    rw [Fin.exists_fin_two]
    rfl
  simp only [this]
  congr 2
  ext r q
  fin_cases r <;> fin_cases q <;> rfl

theorem centralDiff3_eq (X x : Fin 6 → Fin 3 → K) : centralDiff3 X x =
    if ∃ q, x (end3 q true) q - x (end3 q false) q = 0 then .error .zeroDivisionError
    else .ok (quotient3 X x) := by
  unfold centralDiff3
  have : (∃ q, x (end3 q true) q - x (end3 q false) q = 0) ↔
      (x 1 0 - x 0 0 = 0 ∨ x 2 1 - x 3 1 = 0 ∨ x 4 2 - x 5 2 = 0) := by
    rw [Fin.exists_fin_succ, Fin.exists_fin_two]
    rfl
  simp only [this]
  congr 2
  ext r q
  fin_cases r <;> fin_cases q <;> rfl

/-- The matrix of a turned group is the matrix of the group in the new coordinates. -/
theorem centralDiff2_turn (t : Turn 2) {X X' x x' : Fin 4 → Fin 2 → K} (hX : t.Group2 X X')
    (hx : t.Group2 x x') : centralDiff2 X' x' = (centralDiff2 X x).map t.matrix := by
  have hz : (∃ q, x' (end2 q true) q - x' (end2 q false) q = 0) ↔
      ∃ q, x (end2 q true) q - x (end2 q false) q = 0 := by
    have e : ∀ q, x' (end2 q true) q - x' (end2 q false) q = 0 ↔
        x (end2 (t.perm q) true) (t.perm q) - x (end2 (t.perm q) false) (t.perm q) = 0 := by
      intro q
      rw [hx, hx]
      simp only [Turn.point, signed_sub]
      exact signed_pair_zero (t.flip q) (fun s => x (end2 (t.perm q) s) (t.perm q))
    simp only [e]
    exact ⟨fun ⟨q, hq⟩ => ⟨_, hq⟩, fun ⟨q, hq⟩ => ⟨t.perm.symm q, by simpa using hq⟩⟩
  rw [centralDiff2_eq, centralDiff2_eq]
  simp only [hz]
  split_ifs
  · rfl
  · refine congrArg Except.ok ?_
    funext r q
    simp only [quotient2, Turn.matrix]
    rw [hX, hX, hx, hx]
    simp only [Turn.point, signed_sub, signed_div]
    congr 1
    exact signed_pair (t.flip q) (fun s => X (end2 (t.perm q) s) (t.perm r))
      (fun s => x (end2 (t.perm q) s) (t.perm q))

/-- The matrix of a turned group is the matrix of the group in the new coordinates. -/
theorem centralDiff3_turn (t : Turn 3) {X X' x x' : Fin 6 → Fin 3 → K} (hX : t.Group3 X X')
    (hx : t.Group3 x x') : centralDiff3 X' x' = (centralDiff3 X x).map t.matrix := by
  have hz : (∃ q, x' (end3 q true) q - x' (end3 q false) q = 0) ↔
      ∃ q, x (end3 q true) q - x (end3 q false) q = 0 := by
    have e : ∀ q, x' (end3 q true) q - x' (end3 q false) q = 0 ↔
        x (end3 (t.perm q) true) (t.perm q) - x (end3 (t.perm q) false) (t.perm q) = 0 := by
      intro q
      rw [hx, hx]
      simp only [Turn.point, signed_sub]
      exact signed_pair_zero (t.flip q) (fun s => x (end3 (t.perm q) s) (t.perm q))
    simp only [e]
    exact ⟨fun ⟨q, hq⟩ => ⟨_, hq⟩, fun ⟨q, hq⟩ => ⟨t.perm.symm q, by simpa using hq⟩⟩
  rw [centralDiff3_eq, centralDiff3_eq]
  simp only [hz]
  split_ifs
  · rfl
  · refine congrArg Except.ok ?_
    funext r q
    simp only [quotient3, Turn.matrix]
    rw [hX, hX, hx, hx]
    simp only [Turn.point, signed_sub, signed_div]
    congr 1
    exact signed_pair (t.flip q) (fun s => X (end3 (t.perm q) s) (t.perm r))
      (fun s => x (end3 (t.perm q) s) (t.perm q))

end

end

end Verif
