import Verif.Spec.Folder
import Verif.Props.Names
import Mathlib.Data.List.TakeWhile

/-!
# Helper lemmas about the output folder
-/

namespace Verif

variable {α : Type}

/-! ### Strings -/

theorem splitSlash_eq_splitOn (p : PathStr) : splitSlash p = p.splitOn '/' := by
  unfold List.splitOn
  induction p with
  | nil => simp [splitSlash]
  | cons c cs ih =>
    rw [splitSlash, List.splitOnP_cons_eq_if_modifyHead, ← ih]
    by_cases hc : c = '/'
    · simp [hc]
    · obtain ⟨q, qs, hq⟩ := List.exists_cons_of_ne_nil (splitSlash_ne_nil cs)
      simp [hc, hq]

theorem pathNames_eq (p : PathStr) : pathNames p = namesIn p := by
  rw [pathNames, namesIn, splitSlash_eq_splitOn]

theorem pathNames_slash (a b : PathStr) : pathNames (a ++ '/' :: b) = pathNames a ++ pathNames b := by
  rw [pathNames, splitSlash_append, List.filter_append]
  rfl

theorem pathNames_nil : pathNames [] = [] := rfl

theorem pathNames_noSlash {t : PathStr} (h : '/' ∉ t) (h0 : t ≠ []) : pathNames t = [t] := by
  rw [pathNames, splitSlash_noSlash h]
  simp [h0]

theorem pathNames_slashes (k : ℕ) (t : PathStr) :
    pathNames (List.replicate k '/' ++ t) = pathNames t := by
  induction k with
  | zero => rfl
  | succ k ih =>
    have := pathNames_slash [] (List.replicate k '/' ++ t)
    rw [pathNames_nil, List.nil_append, List.nil_append, ih] at this
    exact this

theorem pathNames_sep (a : PathStr) (k : ℕ) (t : PathStr) :
    pathNames (a ++ List.replicate (k + 1) '/' ++ t) = pathNames a ++ pathNames t := by
  rw [List.replicate_succ, List.append_assoc, List.cons_append, pathNames_slash, pathNames_slashes]

theorem pathNames_ne_nil {h : PathStr} (h0 : h ≠ []) (he : endsSlash h = false) :
    pathNames h ≠ [] := by
  intro hn
  have hall : ∀ q ∈ splitSlash h, q = [] := by
    intro q hq
    by_contra hne
    have : q ∈ pathNames h := List.mem_filter.2 ⟨hq, by simpa using hne⟩
    rw [hn] at this
    cases this
  obtain ⟨a, c, rfl⟩ := List.eq_nil_or_concat h |>.resolve_left h0
  have hc : c ≠ '/' := by
    intro h
    rw [h] at he
    simp [endsSlash] at he
  clear h0 he hn
  induction a with
  | nil =>
    have := hall [c] (by simp [splitSlash, hc])
    cases this
  | cons x a ih =>
    refine ih fun q hq => ?_
    rw [List.concat_eq_append, List.cons_append, splitSlash] at hall
    rw [List.concat_eq_append] at hq
    split at hall
    · exact hall q (List.mem_cons_of_mem _ hq)
    · split at hall <;> rename_i heq
      · exact absurd heq (splitSlash_ne_nil _)
      · exact absurd (hall _ (List.mem_cons_self ..)) (by simp)

theorem pathSplit_spec (p : PathStr) : ∃ k,
    p = (pathSplit p).1 ++ List.replicate k '/' ++ (pathSplit p).2 ∧ '/' ∉ (pathSplit p).2 ∧
    ((k = 0 ∧ ∃ m, (pathSplit p).1 = List.replicate m '/') ∨
      (0 < k ∧ (pathSplit p).1 ≠ [] ∧ endsSlash (pathSplit p).1 = false)) := by
  have hp : p = (p.reverse.dropWhile (· ≠ '/')).reverse ++ (p.reverse.takeWhile (· ≠ '/')).reverse := by
    rw [← List.reverse_append, List.takeWhile_append_dropWhile, List.reverse_reverse]
  have ht : '/' ∉ (p.reverse.takeWhile (· ≠ '/')).reverse := by
    intro h
    have := List.mem_takeWhile_imp (List.mem_reverse.1 h)
    simp at this
  have hd : ∀ c r, p.reverse.dropWhile (· ≠ '/') = c :: r → c = '/' := by
    intro c r h
    have := List.head_dropWhile_not (fun x => decide (x ≠ '/')) (l := p.reverse) (by rw [h]; simp)
    simp only [h, List.head_cons] at this
    simpa using this
  set H := p.reverse.dropWhile (· ≠ '/') with hH
  set t := (p.reverse.takeWhile (· ≠ '/')).reverse with hT
  have hsplit : pathSplit p = if H.reverse.all (· = '/') then (H.reverse, t)
      else ((H.reverse.reverse.dropWhile (· = '/')).reverse, t) := rfl
  by_cases hall : H.reverse.all (· = '/') = true
  · rw [if_pos hall] at hsplit
    rw [hsplit]
    refine ⟨0, by simpa using hp, ht, Or.inl ⟨rfl, H.length, ?_⟩⟩
    rw [List.eq_replicate_iff]
    refine ⟨by simp, fun c hc => ?_⟩
    simpa using List.all_eq_true.1 hall c hc
  · rw [if_neg hall, List.reverse_reverse] at hsplit
    rw [hsplit]
    have h1 : H = H.takeWhile (· = '/') ++ H.dropWhile (· = '/') :=
      (List.takeWhile_append_dropWhile).symm
    have h2 : H.takeWhile (· = '/') = List.replicate (H.takeWhile (· = '/')).length '/' := by
      rw [List.eq_replicate_iff]
      refine ⟨rfl, fun c hc => ?_⟩
      simpa using List.mem_takeWhile_imp hc
    refine ⟨(H.takeWhile (· = '/')).length, ?_, ht, Or.inr ⟨?_, ?_, ?_⟩⟩
    · have h3 : H.reverse = (H.dropWhile (· = '/')).reverse ++
          List.replicate (H.takeWhile (· = '/')).length '/' := by
        conv_lhs => rw [h1, List.reverse_append, h2]
        rw [List.reverse_replicate]
      rw [← h3]
      exact hp
    · rw [List.length_pos_iff]
      intro h
      rcases hc : H with _ | ⟨c, r⟩
      · rw [hc] at hall
        simp at hall
      · rw [hc, hd c r hc] at h
        simp at h
    · intro h
      rw [List.reverse_eq_nil_iff, List.dropWhile_eq_nil_iff] at h
      refine hall (List.all_eq_true.2 fun c hc => ?_)
      exact h c (List.mem_reverse.1 hc)
    · rcases hc : H.dropWhile (· = '/') with _ | ⟨c, r⟩
      · rfl
      · have := List.head_dropWhile_not (fun x => decide (x = '/')) (l := H) (by rw [hc]; simp)
        simp only [hc, List.head_cons] at this
        simp only [endsSlash, List.reverse_cons, List.getLast?_append, List.getLast?_singleton,
          Option.some_or, decide_eq_false_iff_not]
        simpa using this

theorem endsSlash_append (a : PathStr) {b : PathStr} (h : b ≠ []) :
    endsSlash (a ++ b) = endsSlash b := by
  unfold endsSlash
  rw [List.getLast?_append_of_ne_nil _ h]

theorem isAbs_append {a : PathStr} (b : PathStr) (h : a ≠ []) : isAbs (a ++ b) = isAbs a := by
  rcases a with _ | ⟨c, a⟩
  · exact absurd rfl h
  · rfl

/-- What `pathSplit` gives when the last name is not empty. -/
theorem pathSplit_last (p : PathStr) (ht : (pathSplit p).2 ≠ []) :
    pathNames p = pathNames (pathSplit p).1 ++ [(pathSplit p).2] ∧
    ((pathSplit p).1 = [] ↔ pathNames (pathSplit p).1 = [] ∧ isAbs p = false) ∧
    ((pathSplit p).1 ≠ [] → isAbs (pathSplit p).1 = isAbs p) ∧
    (pathNames (pathSplit p).1 ≠ [] → endsSlash (pathSplit p).1 = false) := by
  obtain ⟨k, h1, h2, h3⟩ := pathSplit_spec p
  set h := (pathSplit p).1
  set t := (pathSplit p).2
  rcases h3 with ⟨rfl, m, hm⟩ | ⟨hk, hne, he⟩
  · rw [List.replicate_zero, List.append_nil, hm] at h1
    have hn : pathNames h = [] := by
      rw [hm]
      simpa [pathNames_nil] using pathNames_slashes m []
    rw [hn]
    refine ⟨?_, ?_, ?_, fun h => absurd rfl h⟩
    · rw [h1, pathNames_slashes, pathNames_noSlash h2 ht]
      rfl
    · rw [hm, h1]
      rcases m with _ | m
      · obtain ⟨c, r, hc⟩ := List.exists_cons_of_ne_nil ht
        simp only [List.replicate_zero, List.nil_append, true_and, true_iff]
        rw [hc] at h2 ⊢
        have : c ≠ '/' := fun h => h2 (by simp [h])
        simp [isAbs, this]
      · simp [isAbs, List.replicate_succ]
    · intro h0
      rw [h1, isAbs_append _ (hm ▸ h0), hm]
  · obtain ⟨k, rfl⟩ : ∃ j, k = j + 1 := ⟨k - 1, by omega⟩
    refine ⟨?_, ?_, ?_, fun _ => he⟩
    · rw [h1, pathNames_sep, pathNames_noSlash h2 ht]
    · exact ⟨fun h => absurd h hne, fun h => absurd h.1 (pathNames_ne_nil hne he)⟩
    · intro h0
      conv_rhs => rw [h1, List.append_assoc, isAbs_append _ h0]

theorem pathParts_root {p : PathStr} (h : pathNames p = []) : (pathParts p).2 = [] := by
  by_cases ht : (pathSplit p).2 = []
  · rw [pathParts, if_pos ht]
    obtain ⟨k, h1, h2, h3⟩ := pathSplit_spec p
    rw [ht, List.append_nil] at h1
    rcases h3 with ⟨rfl, m, hm⟩ | ⟨hk, hne, he⟩
    · rw [List.replicate_zero, List.append_nil] at h1
      rw [← h1]
      exact ht
    · obtain ⟨k, rfl⟩ : ∃ j, k = j + 1 := ⟨k - 1, by omega⟩
      have h4 := pathNames_sep (pathSplit p).1 k []
      rw [List.append_nil, ← h1, h, pathNames_nil, List.append_nil] at h4
      exact absurd h4.symm (pathNames_ne_nil hne he)
  · have := (pathSplit_last p ht).1
    rw [h] at this
    simp at this

/-- Head and tail in `os.makedirs`. -/
theorem pathParts_spec {p : PathStr} (h : pathNames p ≠ []) :
    (pathParts p).2 ≠ [] ∧
    pathNames p = pathNames (pathParts p).1 ++ [(pathParts p).2] ∧
    ((pathParts p).1 = [] ↔ pathNames (pathParts p).1 = [] ∧ isAbs p = false) ∧
    ((pathParts p).1 ≠ [] → isAbs (pathParts p).1 = isAbs p) ∧
    (pathNames (pathParts p).1 ≠ [] → endsSlash (pathParts p).1 = false) := by
  by_cases ht : (pathSplit p).2 = []
  · rw [pathParts, if_pos ht]
    obtain ⟨k, h1, h2, h3⟩ := pathSplit_spec p
    rw [ht, List.append_nil] at h1
    rcases h3 with ⟨rfl, m, hm⟩ | ⟨hk, hne, he⟩
    · rw [List.replicate_zero, List.append_nil, hm] at h1
      refine absurd ?_ h
      rw [h1]
      simpa [pathNames_nil] using pathNames_slashes m []
    · obtain ⟨k, rfl⟩ : ∃ j, k = j + 1 := ⟨k - 1, by omega⟩
      have h4 := pathNames_sep (pathSplit p).1 k []
      rw [List.append_nil, ← h1, pathNames_nil, List.append_nil] at h4
      have h5 : isAbs p = isAbs (pathSplit p).1 := by
        conv_lhs => rw [h1, isAbs_append _ hne]
      have ht' : (pathSplit (pathSplit p).1).2 ≠ [] := by
        intro h0
        obtain ⟨j, g1, g2, g3⟩ := pathSplit_spec (pathSplit p).1
        rw [h0, List.append_nil] at g1
        rcases g3 with ⟨rfl, m, hm⟩ | ⟨hj, hne', -⟩
        · rw [List.replicate_zero, List.append_nil, hm] at g1
          rcases m with _ | m
          · exact hne (by simpa using g1)
          · rw [g1, List.replicate_succ'] at he
            simp [endsSlash] at he
        · obtain ⟨j, rfl⟩ : ∃ i, j = i + 1 := ⟨j - 1, by omega⟩
          rw [g1, List.replicate_succ', ← List.append_assoc] at he
          simp [endsSlash] at he
      obtain ⟨g1, g2, g3, g4⟩ := pathSplit_last _ ht'
      rw [h4, h5]
      exact ⟨ht', g1, g2, g3, g4⟩
  · rw [pathParts, if_neg ht]
    exact ⟨ht, pathSplit_last p ht⟩

/-! ### Locations -/

theorem stations_append (loc : Loc) (a : List (List Char)) (c : List Char) :
    stations loc (a ++ [c]) = stations loc a ++ [move (destination loc a) c] := by
  induction a generalizing loc with
  | nil => rfl
  | cons n a ih => simp only [List.cons_append, stations, ih]; rfl

theorem destination_append (loc : Loc) (a : List (List Char)) (c : List Char) :
    destination loc (a ++ [c]) = move (destination loc a) c := by
  simp [destination]

theorem destination_mem (loc : Loc) (a : List (List Char)) : destination loc a ∈ stations loc a := by
  induction a generalizing loc with
  | nil => simp [stations, destination]
  | cons n a ih => exact List.mem_cons_of_mem _ (ih _)

theorem start_mem (loc : Loc) (a : List (List Char)) : loc ∈ stations loc a := by
  cases a <;> simp [stations]

/-- All locations on the way are directories. -/
def Disk.Clear (d : Disk α) (loc : Loc) (names : List (List Char)) : Prop :=
  ∀ x ∈ stations loc names, d.node x = some .dir

theorem Disk.clear_append {d : Disk α} {loc : Loc} {a : List (List Char)} {c : List Char} :
    d.Clear loc (a ++ [c]) ↔ d.Clear loc a ∧ d.node (move (destination loc a) c) = some .dir := by
  unfold Disk.Clear
  rw [stations_append]
  simp only [List.mem_append, List.mem_singleton]
  exact ⟨fun h => ⟨fun x hx => h x (.inl hx), h _ (.inr rfl)⟩,
    fun h x hx => hx.elim (h.1 x) fun e => e ▸ h.2⟩

theorem Disk.enter_dir {d : Disk α} {loc : Loc} (h : d.node loc = some .dir) (name : List Char) :
    d.enter loc name = .ok (move loc name) := by
  unfold Disk.enter move
  simp only [h]
  split_ifs <;> rfl

theorem Disk.enter_error {d : Disk α} {loc : Loc} (h : d.node loc ≠ some .dir) (name : List Char) :
    ∃ e, d.enter loc name = .error e ∧ e ≠ .exists := by
  unfold Disk.enter
  split <;> rename_i hn
  · exact ⟨_, rfl, by decide⟩
  · exact ⟨_, rfl, by decide⟩
  · exact absurd hn h

theorem Disk.walk_append (d : Disk α) (loc : Loc) (a : List (List Char)) (c : List Char) :
    d.walk loc (a ++ [c]) = match d.walk loc a with
      | .error e => .error e
      | .ok l => d.enter l c := by
  induction a generalizing loc with
  | nil =>
    simp only [List.nil_append, Disk.walk]
    cases d.enter loc c <;> rfl
  | cons n a ih =>
    simp only [List.cons_append, Disk.walk]
    cases d.enter loc n with
    | error e => rfl
    | ok l => exact ih l

/-- Path resolution follows the stations as long as they are directories. -/
theorem Disk.walk_ok {d : Disk α} {loc : Loc} {a : List (List Char)} (h : d.Clear loc a) :
    d.walk loc a = .ok (destination loc a) := by
  induction a using List.reverseRecOn with
  | nil => rfl
  | append_singleton a c ih =>
    rw [Disk.clear_append] at h
    rw [Disk.walk_append, ih h.1]
    simp only
    rw [Disk.enter_dir (h.1 _ (destination_mem _ _)), destination_append]

theorem Disk.walk_some {d : Disk α} {loc : Loc} {a : List (List Char)} {l : Loc}
    (h : d.walk loc a = .ok l) :
    l = destination loc a ∧ (d.node l = some .dir → d.Clear loc a) := by
  induction a using List.reverseRecOn generalizing l with
  | nil =>
    cases h
    refine ⟨rfl, fun hd x hx => ?_⟩
    simp only [stations, List.mem_singleton] at hx
    rw [hx]
    exact hd
  | append_singleton a c ih =>
    rw [Disk.walk_append] at h
    cases hw : d.walk loc a with
    | error e => rw [hw] at h; cases h
    | ok m =>
      simp only [hw] at h
      obtain ⟨h1, h2⟩ := ih hw
      by_cases hd : d.node m = some .dir
      · rw [Disk.enter_dir hd] at h
        cases h
        rw [destination_append, h1, Disk.clear_append]
        exact ⟨rfl, fun hx => ⟨h2 hd, hx⟩⟩
      · obtain ⟨e, he, -⟩ := Disk.enter_error hd c
        rw [he] at h
        cases h

theorem Disk.walk_err {d : Disk α} {loc : Loc} {a : List (List Char)} {e : Errno}
    (h : d.walk loc a = .error e) : e ≠ .exists := by
  induction a generalizing loc with
  | nil => cases h
  | cons n a ih =>
    unfold Disk.walk at h
    by_cases hd : d.node loc = some .dir
    · rw [Disk.enter_dir hd] at h
      exact ih h
    · obtain ⟨e', he, hne⟩ := Disk.enter_error hd n
      rw [he] at h
      cases h
      exact hne

theorem Disk.isDir_iff (d : Disk α) (p : PathStr) :
    d.isDir p = true ↔ p ≠ [] ∧ d.Clear (d.start p) (pathNames p) := by
  unfold Disk.isDir Disk.stat
  by_cases hp : p = []
  · simp [hp]
  · rw [if_neg hp]
    constructor
    · intro h
      refine ⟨hp, ?_⟩
      cases hw : d.walk (d.start p) (pathNames p) with
      | error e => simp [hw] at h
      | ok l =>
        simp only [hw] at h
        refine (Disk.walk_some hw).2 ?_
        cases hn : d.node l with
        | none => simp [hn] at h
        | some n =>
          cases n with
          | dir => rfl
          | file c =>
            simp only [hn] at h
            split at h
            · rename_i heq
              split at heq <;> cases heq
            · cases h
    · rintro ⟨-, h⟩
      rw [Disk.walk_ok h]
      simp only [h _ (destination_mem _ _)]

/-- The parent of the last name. -/
theorem Disk.parent_ok {d : Disk α} {p : PathStr} {a : List (List Char)} {c : List Char}
    (hp : pathNames p = a ++ [c]) (h : d.Clear (d.start p) a) :
    d.parent p = .ok (destination (d.start p) a) := by
  unfold Disk.parent
  rw [hp, List.dropLast_concat, Disk.walk_ok h]
  simp only [h _ (destination_mem _ _)]

theorem Disk.parent_error {d : Disk α} {p : PathStr} {a : List (List Char)} {c : List Char}
    (hp : pathNames p = a ++ [c]) (h : ¬ d.Clear (d.start p) a) :
    ∃ e, d.parent p = .error e ∧ e ≠ .exists := by
  unfold Disk.parent
  rw [hp, List.dropLast_concat]
  cases hw : d.walk (d.start p) a with
  | error e => exact ⟨e, rfl, Disk.walk_err hw⟩
  | ok l =>
    simp only
    split <;> rename_i hn
    · exact ⟨_, rfl, by decide⟩
    · exact ⟨_, rfl, by decide⟩
    · exact absurd ((Disk.walk_some hw).2 hn) h

/-- An ordinary name. -/
def Ordinary (c : List Char) : Prop := c ≠ ['.'] ∧ c ≠ ['.', '.']

instance (c : List Char) : Decidable (Ordinary c) := instDecidableAnd

theorem move_ordinary {c : List Char} (h : Ordinary c) (loc : Loc) : move loc c = loc ++ [c] := by
  rw [move, if_neg h.1, if_neg h.2]

theorem Disk.Tree.up {d : Disk α} (h : d.Tree) {loc : Loc} (hl : (d.node loc).isSome) :
    d.node loc.dropLast = some .dir := by
  rcases List.eq_nil_or_concat loc with rfl | ⟨a, c, rfl⟩
  · exact h.root
  · rw [List.concat_eq_append] at hl ⊢
    rw [List.dropLast_concat]
    exact h.parent a c hl

/-! ### `os.mkdir` -/

/-- The last step of `os.makedirs` when everything before the last name is there. -/
theorem Disk.mkdirOk_clear {d : Disk α} (ht : d.Tree) {p : PathStr} {a : List (List Char)}
    {c : List Char} (hp : pathNames p = a ++ [c]) (h : d.Clear (d.start p) a) :
    d.mkdirOk p =
      if Ordinary c then
        match d.node (destination (d.start p) a ++ [c]) with
        | some .dir => (d, none)
        | some (.file _) => (d, some .exists)
        | none => if d.locked (destination (d.start p) a) then (d, some .denied)
            else (d.set (destination (d.start p) a ++ [c]) .dir, none)
      else (d, none) := by
  have h0 : p ≠ [] := by
    rintro rfl
    simp [pathNames_nil] at hp
  have hid : d.isDir p = true ↔ d.node (move (destination (d.start p) a) c) = some .dir := by
    rw [Disk.isDir_iff, hp, Disk.clear_append]
    exact ⟨fun g => g.2.2, fun g => ⟨h0, h, g⟩⟩
  have hdest := h _ (destination_mem _ _)
  unfold Disk.mkdirOk Disk.mkdir
  rw [if_neg h0, hp, List.getLast?_concat]
  simp only [Disk.parent_ok hp h]
  by_cases ho : Ordinary c
  · rw [if_pos ho, if_neg (not_or.2 ho)]
    rw [move_ordinary ho] at hid
    cases hn : d.node (destination (d.start p) a ++ [c]) with
    | none =>
      rw [if_neg (by simp)]
      have hf : d.isDir p = false := by
        rw [Bool.eq_false_iff]
        intro h
        rw [hid, hn] at h
        cases h
      by_cases hl : d.locked (destination (d.start p) a) = true
      · simp [hl, hf]
      · simp [hl]
    | some n =>
      rw [if_pos (by simp)]
      cases n with
      | dir => simp [hid.2 hn]
      | file x =>
        have hf : d.isDir p = false := by
          rw [Bool.eq_false_iff]
          intro h
          rw [hid, hn] at h
          cases h
        simp [hf]
  · rw [if_neg ho]
    have ho' : c = ['.'] ∨ c = ['.', '.'] := by
      unfold Ordinary at ho
      tauto
    rw [if_pos ho']
    have : d.isDir p = true := by
      rw [hid]
      rcases ho' with rfl | rfl
      · exact hdest
      · exact ht.up (by rw [hdest]; rfl)
    simp [this]

theorem Disk.mkdirOk_blocked {d : Disk α} {p : PathStr} {a : List (List Char)}
    {c : List Char} (hp : pathNames p = a ++ [c]) (h : ¬ d.Clear (d.start p) a) :
    ∃ e, d.mkdirOk p = (d, some e) ∧ e ≠ .exists := by
  have h0 : p ≠ [] := by
    rintro rfl
    simp [pathNames_nil] at hp
  obtain ⟨e, he, hne⟩ := Disk.parent_error hp h
  have hf : d.isDir p = false := by
    rw [Bool.eq_false_iff]
    intro g
    rw [Disk.isDir_iff, hp, Disk.clear_append] at g
    exact h g.2.1
  refine ⟨e, ?_, hne⟩
  unfold Disk.mkdirOk Disk.mkdir
  rw [if_neg h0, hp, List.getLast?_concat]
  simp [he, hf]

theorem Disk.mkdirOk_root {d : Disk α} (ht : d.Tree) {p : PathStr} (h0 : p ≠ [])
    (hp : pathNames p = []) : d.mkdirOk p = (d, none) ∧ d.Clear (d.start p) (pathNames p) := by
  have hc : d.Clear (d.start p) (pathNames p) := by
    intro x hx
    rw [hp, stations, List.mem_singleton] at hx
    rw [hx, Disk.start]
    split
    · exact ht.root
    · exact ht.cwd
  refine ⟨?_, hc⟩
  unfold Disk.mkdirOk Disk.mkdir
  rw [if_neg h0, hp]
  simp [(Disk.isDir_iff d p).2 ⟨h0, hc⟩]

/-! ### `os.makedirs` -/

/-- `d'` is `d` with some of the missing locations of `way` made directories. -/
structure Disk.Grows (d d' : Disk α) (way : List Loc) : Prop where
  cwd : d'.cwd = d.cwd
  locked : d'.locked = d.locked
  tree : d'.Tree
  node : ∀ x, d'.node x = d.node x ∨
    d.node x = none ∧ d.locked x.dropLast = false ∧ d'.node x = some .dir ∧ x ∈ way

theorem Disk.Grows.refl {d : Disk α} (h : d.Tree) (way : List Loc) : d.Grows d way :=
  ⟨rfl, rfl, h, fun _ => .inl rfl⟩

theorem Disk.Grows.trans {d d₁ d₂ : Disk α} {w₁ w₂ : List Loc} (h₁ : d.Grows d₁ w₁)
    (h₂ : d₁.Grows d₂ w₂) (hw : ∀ x ∈ w₁, x ∈ w₂) : d.Grows d₂ w₂ := by
  refine ⟨h₂.cwd.trans h₁.cwd, h₂.locked.trans h₁.locked, h₂.tree, fun x => ?_⟩
  rcases h₁.node x with e₁ | ⟨a, b, c, g⟩
  · rcases h₂.node x with e₂ | ⟨a', b', c', g'⟩
    · exact .inl (e₂.trans e₁)
    · exact .inr ⟨e₁ ▸ a', h₁.locked ▸ b', c', g'⟩
  · rcases h₂.node x with e₂ | ⟨a', -, -, -⟩
    · exact .inr ⟨a, b, e₂.trans c, hw x g⟩
    · rw [c] at a'
      cases a'

theorem Disk.Grows.mono {d d' : Disk α} {w₁ w₂ : List Loc} (h : d.Grows d' w₁)
    (hw : ∀ x ∈ w₁, x ∈ w₂) : d.Grows d' w₂ :=
  ⟨h.cwd, h.locked, h.tree, fun x => (h.node x).imp id fun ⟨a, b, c, g⟩ => ⟨a, b, c, hw x g⟩⟩

theorem Disk.Grows.start {d d' : Disk α} {w : List Loc} (h : d.Grows d' w) (p : PathStr) :
    d'.start p = d.start p := by
  unfold Disk.start
  rw [h.cwd]

theorem Disk.Tree.set {d : Disk α} (ht : d.Tree) {loc : Loc} {c : List Char} {n : Node α}
    (hl : d.node loc = some .dir) (hn : d.node (loc ++ [c]) ≠ some .dir) :
    (d.set (loc ++ [c]) n).Tree := by
  have hne : ∀ x, d.node x = some .dir → (d.set (loc ++ [c]) n).node x = some .dir := by
    intro x hx
    have : x ≠ loc ++ [c] := by
      rintro rfl
      exact hn hx
    simp [Disk.set, this, hx]
  refine ⟨hne _ ht.root, hne _ ht.cwd, fun l m hs => hne _ ?_⟩
  by_cases h : l ++ [m] = loc ++ [c]
  · rw [(List.append_inj' h rfl).1]
    exact hl
  · refine ht.parent l m ?_
    simpa [Disk.set, h] using hs

theorem Disk.mkdirOk_grows {d : Disk α} (ht : d.Tree) {p : PathStr} {a : List (List Char)}
    {c : List Char} (hp : pathNames p = a ++ [c]) :
    d.Grows (d.mkdirOk p).1 (stations (d.start p) (a ++ [c])) := by
  by_cases h : d.Clear (d.start p) a
  · rw [Disk.mkdirOk_clear ht hp h]
    by_cases ho : Ordinary c
    · rw [if_pos ho]
      split
      · exact .refl ht _
      · exact .refl ht _
      · rename_i hn
        split
        · exact .refl ht _
        · rename_i hl
          refine ⟨rfl, rfl, ht.set (h _ (destination_mem _ _)) (by rw [hn]; simp), fun x => ?_⟩
          by_cases hx : x = destination (d.start p) a ++ [c]
          · subst hx
            refine .inr ⟨hn, ?_, by simp [Disk.set], ?_⟩
            · rw [List.dropLast_concat]
              simpa using hl
            · rw [stations_append, move_ordinary ho]
              simp
          · exact .inl (by simp [Disk.set, hx])
    · rw [if_neg ho]
      exact .refl ht _
  · obtain ⟨e, he, -⟩ := Disk.mkdirOk_blocked hp h
    rw [he]
    exact .refl ht _

/-- Without `..`, a directory can be reached if it is there. -/
theorem Disk.clear_of_noUp {d : Disk α} (ht : d.Tree) {loc : Loc} {names : List (List Char)}
    (hu : ['.', '.'] ∉ names) (h : d.node (destination loc names) = some .dir) :
    d.Clear loc names := by
  induction names using List.reverseRecOn with
  | nil =>
    intro x hx
    rw [stations, List.mem_singleton] at hx
    rw [hx]
    exact h
  | append_singleton a c ih =>
    rw [List.mem_append, not_or, List.mem_singleton] at hu
    rw [destination_append] at h
    refine Disk.clear_append.2 ⟨ih hu.1 ?_, h⟩
    by_cases hc : c = ['.']
    · rwa [move, if_pos hc] at h
    · rw [move_ordinary ⟨hc, fun g => hu.2 g.symm⟩] at h
      exact ht.parent _ c (by rw [h]; rfl)

theorem Disk.exists_of {d : Disk α} {p : PathStr} {a : List (List Char)} {c : List Char}
    (hp : pathNames p = a ++ [c]) (ho : Ordinary c) (he : endsSlash p = false)
    (h : d.Clear (d.start p) a) (hs : (d.node (destination (d.start p) a ++ [c])).isSome) :
    d.exists p = true := by
  have h0 : p ≠ [] := by
    rintro rfl
    simp [pathNames_nil] at hp
  unfold Disk.exists Disk.stat
  rw [if_neg h0, hp, Disk.walk_append, Disk.walk_ok h]
  simp only [Disk.enter_dir (h _ (destination_mem _ _)), move_ordinary ho]
  obtain ⟨n, hn⟩ := Option.isSome_iff_exists.1 hs
  rw [hn]
  cases n <;> simp [he]

/-- An existing path passes directories only. -/
theorem Disk.exists_clear {d : Disk α} {p : PathStr} (h : d.exists p = true) :
    ∃ n, d.node (destination (d.start p) (pathNames p)) = some n ∧
      (n = .dir → d.Clear (d.start p) (pathNames p)) := by
  unfold Disk.exists Disk.stat at h
  split at h <;> rename_i g
  · split at g
    · cases g
    · cases hw : d.walk (d.start p) (pathNames p) with
      | error e => simp [hw] at g
      | ok l =>
        obtain ⟨h1, h2⟩ := Disk.walk_some hw
        simp only [hw] at g
        cases hn : d.node l with
        | none => simp [hn] at g
        | some n =>
          refine ⟨n, by rw [← h1, hn], fun hd => h2 ?_⟩
          rw [hn, hd]
  · cases h

/-- What `os.makedirs(p, exist_ok=True)` does. -/
structure Disk.Makes (d : Disk α) (p : PathStr) (out : Disk α × Option Errno) : Prop where
  grows : d.Grows out.1 (stations (d.start p) (pathNames p))
  honest : ¬ out.1.Clear (d.start p) (pathNames p) →
    ∃ x ∈ stations (d.start p) (pathNames p), ¬ d.Available x
  fails : ∀ e, out.2 = some e → ¬ out.1.Clear (d.start p) (pathNames p)
  file : out.2 = some .exists → ∃ a c x, pathNames p = a ++ [c] ∧ Ordinary c ∧
    d.node (destination (d.start p) a ++ [c]) = some (.file x)
  works : out.2 = none → ['.', '.'] ∉ pathNames p ∨ ['.'] ∉ pathNames p →
    out.1.Clear (d.start p) (pathNames p)

theorem Disk.not_available_file {d : Disk α} {loc : Loc} {c : α}
    (h : d.node loc = some (.file c)) : ¬ d.Available loc := by
  rintro (g | ⟨g, -⟩) <;> rw [h] at g <;> cases g

theorem Disk.Grows.file {d d' : Disk α} {w : List Loc} (h : d.Grows d' w) {loc : Loc} {c : α}
    (hc : d'.node loc = some (.file c)) : d.node loc = some (.file c) := by
  rcases h.node loc with e | ⟨-, -, e, -⟩
  · rw [← e, hc]
  · rw [hc] at e
    cases e

theorem Disk.Grows.none {d d' : Disk α} {w : List Loc} (h : d.Grows d' w) {loc : Loc}
    (hc : d'.node loc = none) : d.node loc = none := by
  rcases h.node loc with e | ⟨-, -, e, -⟩
  · rw [← e, hc]
  · rw [hc] at e
    cases e

/-- The last step, after the directories before the last name have been dealt with. -/
theorem Disk.makes_last {d d₁ : Disk α} {p : PathStr} {a : List (List Char)} {c : List Char}
    (hp : pathNames p = a ++ [c]) (hg : d.Grows d₁ (stations (d.start p) a))
    (hb : ¬ d₁.Clear (d.start p) a → ∃ x ∈ stations (d.start p) a, ¬ d.Available x) :
    d.Makes p (d₁.mkdirOk p) := by
  have hs := hg.start p
  have hsub : ∀ x ∈ stations (d.start p) a, x ∈ stations (d.start p) (a ++ [c]) := by
    intro x hx
    rw [stations_append]
    simp [hx]
  have hgr : d.Grows (d₁.mkdirOk p).1 (stations (d.start p) (pathNames p)) := by
    have := Disk.mkdirOk_grows hg.tree hp
    rw [hs] at this
    rw [hp]
    exact hg.trans this hsub
  by_cases h : d₁.Clear (d.start p) a
  · have hm := Disk.mkdirOk_clear hg.tree hp (hs ▸ h)
    rw [hs] at hm
    have hboth : ∀ e, (d₁.mkdirOk p).2 = some e →
        (∃ x ∈ stations (d.start p) (pathNames p), ¬ d.Available x) ∧
        ¬ (d₁.mkdirOk p).1.Clear (d.start p) (pathNames p) := by
      rw [hm]
      intro e he
      by_cases ho : Ordinary c
      · rw [if_pos ho] at he ⊢
        have hmem : destination (d.start p) a ++ [c] ∈ stations (d.start p) (pathNames p) := by
          rw [hp, stations_append, move_ordinary ho]
          simp
        have hncl : ∀ d₂ : Disk α, d₂.node (destination (d.start p) a ++ [c]) ≠ some .dir →
            ¬ d₂.Clear (d.start p) (pathNames p) := fun d₂ h1 h2 => h1 (h2 _ hmem)
        cases hn : d₁.node (destination (d.start p) a ++ [c]) with
        | none =>
          simp only [hn] at he ⊢
          split at he
          · rename_i hl
            rw [if_pos hl]
            refine ⟨⟨_, hmem, ?_⟩, hncl _ (by rw [hn]; simp)⟩
            rintro (g | ⟨-, g⟩)
            · rw [hg.none hn] at g
              cases g
            · rw [List.dropLast_concat, ← hg.locked, hl] at g
              cases g
          · cases he
        | some n =>
          cases n with
          | dir => simp [hn] at he
          | file x =>
            simp only
            exact ⟨⟨_, hmem, Disk.not_available_file (hg.file hn)⟩, hncl _ (by rw [hn]; simp)⟩
      · simp [if_neg ho] at he
    have hworks : (d₁.mkdirOk p).2 = none →
        (d₁.mkdirOk p).1.Clear (d.start p) (pathNames p) := by
      rw [hm, hp]
      intro hnone
      by_cases ho : Ordinary c
      · rw [if_pos ho] at hnone ⊢
        cases hn : d₁.node (destination (d.start p) a ++ [c]) with
        | none =>
          simp only [hn] at hnone ⊢
          split at hnone
          · cases hnone
          · rename_i hl
            rw [if_neg hl]
            refine Disk.clear_append.2 ⟨fun x hx => ?_, ?_⟩
            · simp only [Disk.set]
              split
              · rfl
              · exact h x hx
            · simp [Disk.set, move_ordinary ho]
        | some n =>
          cases n with
          | dir => exact Disk.clear_append.2 ⟨h, by rw [move_ordinary ho]; exact hn⟩
          | file x => simp [hn] at hnone
      · rw [if_neg ho]
        refine Disk.clear_append.2 ⟨h, ?_⟩
        have hd := h _ (destination_mem (d.start p) a)
        have ho' : c = ['.'] ∨ c = ['.', '.'] := by
          unfold Ordinary at ho
          tauto
        rcases ho' with rfl | rfl
        · exact hd
        · exact hg.tree.up (by rw [hd]; rfl)
    refine ⟨hgr, fun hnc => ?_, fun e he => (hboth e he).2, ?_, fun h' _ => hworks h'⟩
    · cases hr : (d₁.mkdirOk p).2 with
      | none => exact absurd (hworks hr) hnc
      | some e => exact (hboth e hr).1
    · rw [hm]
      intro he
      by_cases ho : Ordinary c
      · rw [if_pos ho] at he
        cases hn : d₁.node (destination (d.start p) a ++ [c]) with
        | none =>
          simp only [hn] at he
          split at he <;> simp at he
        | some n =>
          cases n with
          | dir => simp [hn] at he
          | file x => exact ⟨a, c, x, hp, ho, hg.file hn⟩
      · simp [if_neg ho] at he
  · obtain ⟨e, he, hne⟩ := Disk.mkdirOk_blocked hp (hs ▸ h)
    obtain ⟨x, hx, hx'⟩ := hb h
    refine ⟨hgr, fun _ => ⟨x, hp ▸ hsub x hx, hx'⟩, ?_, ?_, ?_⟩ <;> rw [he]
    · intro e' _
      rw [hp]
      exact fun g => h (Disk.clear_append.1 g).1
    · intro h'
      exact absurd (Option.some.inj h') hne
    · intro h'
      cases h'

theorem Disk.makedirs_makes {d : Disk α} (ht : d.Tree) :
    ∀ (n : ℕ) (p : PathStr), p.length ≤ n → p ≠ [] → d.Makes p (d.makedirs p) := by
  intro n
  induction n with
  | zero => exact fun p hl h0 => absurd (List.length_eq_zero_iff.1 (by omega)) h0
  | succ n ih =>
    intro p hl h0
    by_cases hnil : pathNames p = []
    · have h2 := pathParts_root hnil
      rw [Disk.makedirs, dif_neg (by simp [h2])]
      obtain ⟨g1, g2⟩ := Disk.mkdirOk_root ht h0 hnil
      rw [g1]
      exact ⟨.refl ht _, fun h => absurd g2 h, fun e h => (by simp at h), fun h => (by simp at h),
        fun _ _ => g2⟩
    · obtain ⟨p1, p2, p3, p4, p5⟩ := pathParts_spec hnil
      have hlen := pathParts_length p p1
      set h := (pathParts p).1 with hh
      set t := (pathParts p).2 with htt
      by_cases hc : h ≠ [] ∧ t ≠ [] ∧ d.exists h = false
      · rw [Disk.makedirs, dif_pos hc]
        have hst : d.start h = d.start p := by
          unfold Disk.start
          rw [p4 hc.1]
        have m := ih h (by omega) hc.1
        rw [← hh]
        rcases hm : d.makedirs h with ⟨d₁, r⟩
        rw [hm] at m
        have mg := m.grows
        rw [hst] at mg
        have hlast : ∀ (_ : ¬ d₁.Clear (d.start p) (pathNames h) →
            ∃ x ∈ stations (d.start p) (pathNames h), ¬ d.Available x),
            d.Makes p (d₁.mkdirOk p) := fun hb => Disk.makes_last p2 mg hb
        have hsub : ∀ x ∈ stations (d.start p) (pathNames h),
            x ∈ stations (d.start p) (pathNames p) := by
          intro x hx
          rw [p2, stations_append]
          simp [hx]
        have hhon : ¬ d₁.Clear (d.start p) (pathNames h) →
            ∃ x ∈ stations (d.start p) (pathNames h), ¬ d.Available x := by
          have := m.honest
          rwa [hst] at this
        have hhon' : ∀ {e}, r = some e → (∃ x ∈ stations (d.start p) (pathNames p),
            ¬ d.Available x) ∧ ¬ d₁.Clear (d.start p) (pathNames p) := by
          intro e he
          have hn := m.fails e he
          rw [hst] at hn
          obtain ⟨x, hx, hx'⟩ := hhon hn
          refine ⟨⟨x, hsub x hx, hx'⟩, fun g => hn ?_⟩
          rw [p2] at g
          exact (Disk.clear_append.1 g).1
        cases r with
        | some e =>
          simp only
          by_cases he : e = .exists
          · rw [if_pos he]
            subst he
            by_cases hdot : t = ['.']
            · rw [if_pos hdot]
              refine ⟨mg.mono hsub, fun _ => (hhon' rfl).1, fun e h => (by simp at h),
                fun h => (by simp at h), ?_⟩
              rintro - (hu | hu)
              · obtain ⟨a, c, x, g1, g2, g3⟩ := m.file rfl
                exfalso
                have hex : d.exists h = true := by
                  refine Disk.exists_of g1 g2 (p5 (by rw [g1]; simp)) ?_ (by rw [g3]; rfl)
                  refine Disk.clear_of_noUp ht ?_ (ht.parent _ c (by rw [g3]; rfl))
                  intro hmem
                  refine hu ?_
                  rw [p2, g1]
                  simp [hmem]
                rw [hex] at hc
                exact absurd hc.2.2 (by simp)
              · exact absurd (by rw [p2, hdot]; simp) hu
            · rw [if_neg hdot]
              exact hlast hhon
          · rw [if_neg he]
            exact ⟨mg.mono hsub, fun _ => (hhon' rfl).1, fun e' _ => (hhon' rfl).2,
              fun h' => absurd (Option.some.inj h') he, fun h' => (by cases h')⟩
        | none =>
          simp only
          have hcl : ['.', '.'] ∉ pathNames p ∨ ['.'] ∉ pathNames p →
              d₁.Clear (d.start p) (pathNames h) := by
            intro hs
            rw [← hst]
            refine m.works rfl ?_
            rw [p2] at hs
            simp only [List.mem_append, not_or] at hs
            tauto
          by_cases hdot : t = ['.']
          · rw [if_pos hdot]
            refine ⟨mg.mono hsub, fun hn => ?_, fun e h => (by simp at h),
              fun h => (by simp at h), ?_⟩
            · have : ¬ d₁.Clear (d.start p) (pathNames h) := by
                intro g
                refine hn ?_
                rw [p2, hdot]
                exact Disk.clear_append.2 ⟨g, g _ (destination_mem _ _)⟩
              obtain ⟨x, hx, hx'⟩ := hhon this
              exact ⟨x, hsub x hx, hx'⟩
            intro _ hs
            have g := hcl hs
            rw [p2, hdot]
            exact Disk.clear_append.2 ⟨g, g _ (destination_mem _ _)⟩
          · rw [if_neg hdot]
            exact hlast hhon
      · rw [Disk.makedirs, dif_neg hc]
        refine Disk.makes_last p2 (.refl ht _) fun hb => ?_
        by_cases hh0 : h = []
        · exfalso
          obtain ⟨g1, g2⟩ := p3.1 hh0
          refine hb fun x hx => ?_
          rw [g1, stations, List.mem_singleton] at hx
          rw [hx, Disk.start, g2]
          exact ht.cwd
        · have hex : d.exists h = true := by
            by_contra g
            exact hc ⟨hh0, p1, by simpa using g⟩
          have hst : d.start h = d.start p := by
            unfold Disk.start
            rw [p4 hh0]
          obtain ⟨n, hn, hd⟩ := Disk.exists_clear hex
          rw [hst] at hn hd
          refine ⟨_, destination_mem _ _, ?_⟩
          cases n with
          | dir => exact absurd (hd rfl) hb
          | file x => exact Disk.not_available_file hn

/-! ### Files in a folder -/

theorem FileName.isAbs {name : List Char} (h : FileName name) : isAbs name = false := by
  obtain ⟨c, r, rfl⟩ := List.exists_cons_of_ne_nil h.nonempty
  have : c ≠ '/' := fun e => h.noSlash (by simp [e])
  simp [Verif.isAbs, this]

theorem pathJoin_names (p : PathStr) {name : List Char} (h : FileName name) :
    pathNames (pathJoin p name) = pathNames p ++ [name] ∧
    isAbs (pathJoin p name) = isAbs p ∧ endsSlash (pathJoin p name) = false ∧
    pathJoin p name ≠ [] := by
  have he : endsSlash name = false := by
    unfold endsSlash
    rw [decide_eq_false_iff_not]
    intro g
    exact h.noSlash (List.mem_of_getLast? g)
  unfold pathJoin
  rw [if_neg (by simp [h.isAbs])]
  by_cases hp : p = []
  · subst hp
    rw [if_pos (.inl rfl), List.nil_append, pathNames_noSlash h.noSlash h.nonempty]
    exact ⟨rfl, h.isAbs, he, h.nonempty⟩
  · by_cases hs : endsSlash p = true
    · rw [if_pos (.inr hs)]
      refine ⟨?_, isAbs_append _ hp, (endsSlash_append p h.nonempty).trans he, by simp [hp]⟩
      obtain ⟨q, c, rfl⟩ := List.eq_nil_or_concat p |>.resolve_left hp
      have hc : c = '/' := by simpa [endsSlash] using hs
      subst hc
      rw [List.concat_eq_append, List.append_assoc, List.singleton_append, pathNames_slash,
        pathNames_slash, pathNames_nil, List.append_nil, pathNames_noSlash h.noSlash h.nonempty]
    · rw [if_neg (by simp [hp, hs])]
      refine ⟨?_, isAbs_append _ hp, ?_, by simp⟩
      · rw [pathNames_slash, pathNames_noSlash h.noSlash h.nonempty]
      · rw [← he, endsSlash, endsSlash]
        obtain ⟨c, r, rfl⟩ := List.exists_cons_of_ne_nil h.nonempty
        simp [List.getLast?_append]

theorem Disk.start_join (d : Disk α) (p : PathStr) {name : List Char} (h : FileName name) :
    d.start (pathJoin p name) = d.start p := by
  unfold Disk.start
  rw [(pathJoin_names p h).2.1]

/-- Saving a file in a folder that is there. -/
theorem Disk.writeFile_clear {d : Disk α} {p : PathStr} {name : List Char} (h : FileName name)
    (hc : d.Clear (d.start p) (pathNames p)) (content : α) :
    d.writeFile p name content =
      match d.node (destination (d.start p) (pathNames p) ++ [name]) with
      | some .dir => .error .isDir
      | some (.file _) =>
        if d.locked (destination (d.start p) (pathNames p) ++ [name]) then .error .denied
        else .ok (d.set (destination (d.start p) (pathNames p) ++ [name]) (.file content))
      | none =>
        if d.locked (destination (d.start p) (pathNames p)) then .error .denied
        else .ok (d.set (destination (d.start p) (pathNames p) ++ [name]) (.file content)) := by
  obtain ⟨h1, h2, h3, h4⟩ := pathJoin_names p h
  unfold Disk.writeFile Disk.save
  rw [if_neg h4, h1, List.getLast?_concat]
  have hs := d.start_join p h
  simp only [Disk.parent_ok h1 (hs ▸ hc), hs]
  rw [if_neg (by simp [h3, h.noDot, h.noDots])]
  rcases d.node (destination (d.start p) (pathNames p) ++ [name]) with _ | _ | _ <;> rfl

/-- Saving a file in a folder that is not there. -/
theorem Disk.writeFile_blocked {d : Disk α} {p : PathStr} {name : List Char} (h : FileName name)
    (hc : ¬ d.Clear (d.start p) (pathNames p)) (content : α) :
    ∃ e, d.writeFile p name content = .error e := by
  obtain ⟨h1, h2, h3, h4⟩ := pathJoin_names p h
  obtain ⟨e, he, -⟩ := Disk.parent_error h1 ((d.start_join p h) ▸ hc)
  unfold Disk.writeFile Disk.save
  rw [if_neg h4, h1, List.getLast?_concat]
  simp [he]

theorem Disk.way_eq (d : Disk α) (p : PathStr) : d.way p = stations (d.start p) (pathNames p) := by
  unfold Disk.way Disk.start isAbs
  rw [pathNames_eq]
  by_cases h : p.head? = some '/' <;> simp [h]

theorem Disk.target_eq (d : Disk α) (p : PathStr) :
    d.target p = destination (d.start p) (pathNames p) := by
  unfold Disk.target Disk.start isAbs
  rw [pathNames_eq]
  by_cases h : p.head? = some '/' <;> simp [h]

theorem Disk.makes {d : Disk α} (ht : d.Tree) {p : PathStr} (h0 : p ≠ []) :
    d.Makes p (d.makedirs p) := Disk.makedirs_makes ht _ p le_rfl h0

theorem Disk.openFolder_fst (d : Disk α) (p : PathStr) : (d.openFolder p).1 = (d.makedirs p).1 := by
  unfold Disk.openFolder
  rcases d.makedirs p with ⟨d', _ | e⟩ <;> rfl

theorem Disk.openFolder_snd (d : Disk α) (p : PathStr) :
    (d.openFolder p).2 = [] ↔ (d.makedirs p).2 = none := by
  unfold Disk.openFolder
  rcases d.makedirs p with ⟨d', _ | e⟩ <;> simp

end Verif
