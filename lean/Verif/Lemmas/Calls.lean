import Verif.Model.Calls
import Verif.Lemmas.Disk

/-!
# Processes among others

A process is analysed with what it may rely on (`Disk.Spared`: what the others leave alone) and what it
guarantees (`Disk.Touches`: what it changes itself).
-/

namespace Verif

variable {α R S : Type}

/-- What other processes may do between two system calls: directories stay; on the way `W` at most
missing directories appear; the files `F` are left alone. -/
structure Disk.Spared (W F : Loc → Prop) (d d' : Disk α) : Prop where
  cwd : d'.cwd = d.cwd
  locked : d'.locked = d.locked
  dirs : ∀ x, d.node x = some .dir → d'.node x = some .dir
  way : ∀ x, W x → d'.node x = d.node x ∨ d.node x = none ∧ d'.node x = some .dir
  files : ∀ x, F x → d'.node x = d.node x

/-- What a process does with one system call: it makes a missing directory on the way `W`, or writes one
of the files `F`. -/
def Disk.Touches (W F : Loc → Prop) (d d' : Disk α) : Prop :=
  ∃ x n, d' = d.set x n ∧ (W x ∧ d.node x = none ∧ n = .dir ∨
    F x ∧ d.node x ≠ some .dir ∧ ∃ c, n = .file c)

theorem Disk.Spared.refl (W F : Loc → Prop) (d : Disk α) : Disk.Spared W F d d :=
  ⟨rfl, rfl, fun _ h => h, fun _ _ => .inl rfl, fun _ _ => rfl⟩

theorem Disk.Spared.trans {W F : Loc → Prop} {d₁ d₂ d₃ : Disk α} (h : Disk.Spared W F d₁ d₂)
    (h' : Disk.Spared W F d₂ d₃) : Disk.Spared W F d₁ d₃ := by
  refine ⟨h'.cwd.trans h.cwd, h'.locked.trans h.locked, fun x hx => h'.dirs x (h.dirs x hx),
    fun x hx => ?_, fun x hx => (h'.files x hx).trans (h.files x hx)⟩
  rcases h.way x hx with e | ⟨e1, e2⟩
  · rw [← e]
    exact h'.way x hx
  · exact .inr ⟨e1, h'.dirs x e2⟩

/-- A call of one process seen by another. -/
theorem Disk.Touches.spared {W F W' F' : Loc → Prop} {d d' : Disk α} (h : Disk.Touches W F d d')
    (h1 : ∀ x, W x → ¬ F' x) (h2 : ∀ x, F x → ¬ W' x) (h3 : ∀ x, F x → ¬ F' x) :
    Disk.Spared W' F' d d' := by
  obtain ⟨x, n, rfl, ⟨hw, hn, rfl⟩ | ⟨hf, hn, c, rfl⟩⟩ := h
  · refine ⟨rfl, rfl, fun y hy => ?_, fun y _ => ?_, fun y hy => ?_⟩
    · simp only [Disk.set]
      split
      · rfl
      · exact hy
    · simp only [Disk.set]
      split
      · rename_i e
        subst e
        exact .inr ⟨hn, rfl⟩
      · exact .inl rfl
    · simp only [Disk.set]
      rw [if_neg]
      rintro rfl
      exact h1 _ hw hy
  · refine ⟨rfl, rfl, fun y hy => ?_, fun y hy => .inl ?_, fun y hy => ?_⟩
    · simp only [Disk.set]
      rw [if_neg]
      · exact hy
      · rintro rfl
        exact hn hy
    · simp only [Disk.set]
      rw [if_neg]
      rintro rfl
      exact h2 _ hf hy
    · simp only [Disk.set]
      rw [if_neg]
      rintro rfl
      exact h3 _ hf hy

/-- The process, started now, keeps to its guarantee and ends with `Q`, whatever spared changes come in
between. -/
def Calls.Works (W F : Loc → Prop) (Q : R → Disk α → Prop) : Calls α R → Disk α → Prop
  | .done r, d => ∀ d', Disk.Spared W F d d' → Q r d'
  | .stat p k, d => ∀ d', Disk.Spared W F d d' → (k (d'.stat p)).Works W F Q d'
  | .mkdir p k, d => ∀ d', Disk.Spared W F d d' →
    (∀ d₂, d'.mkdir p = .ok d₂ → Disk.Touches W F d' d₂ ∧ (k none).Works W F Q d₂) ∧
    ∀ e, d'.mkdir p = .error e → (k (some e)).Works W F Q d'
  | .save p c k, d => ∀ d', Disk.Spared W F d d' →
    (∀ d₂, d'.save p c = .ok d₂ → Disk.Touches W F d' d₂ ∧ (k none).Works W F Q d₂) ∧
    ∀ e, d'.save p c = .error e → (k (some e)).Works W F Q d'

theorem Calls.Works.stable {W F : Loc → Prop} {Q : R → Disk α → Prop} {P : Calls α R} {d d' : Disk α}
    (h : P.Works W F Q d) (hs : Disk.Spared W F d d') : P.Works W F Q d' := by
  cases P <;> exact fun d₂ h₂ => h d₂ (hs.trans h₂)

theorem Calls.Works.mono {W F : Loc → Prop} {Q Q' : R → Disk α → Prop} {P : Calls α R} {d : Disk α}
    (h : P.Works W F Q d) (hq : ∀ r d', Q r d' → Q' r d') : P.Works W F Q' d := by
  induction P generalizing d with
  | done r => exact fun d' hd => hq _ _ (h d' hd)
  | stat p k ih => exact fun d' hd => ih _ (h d' hd)
  | mkdir p k ih =>
    exact fun d' hd => ⟨fun d₂ h₂ => ⟨((h d' hd).1 d₂ h₂).1, ih _ ((h d' hd).1 d₂ h₂).2⟩,
      fun e he => ih _ ((h d' hd).2 e he)⟩
  | save p c k ih =>
    exact fun d' hd => ⟨fun d₂ h₂ => ⟨((h d' hd).1 d₂ h₂).1, ih _ ((h d' hd).1 d₂ h₂).2⟩,
      fun e he => ih _ ((h d' hd).2 e he)⟩

theorem Calls.Works.bind {W F : Loc → Prop} {Q : S → Disk α → Prop} {P : Calls α R}
    {f : R → Calls α S} {d : Disk α} (h : P.Works W F (fun r d' => (f r).Works W F Q d') d) :
    (P.bind f).Works W F Q d := by
  induction P generalizing d with
  | done r => exact h d (.refl _ _ _)
  | stat p k ih => exact fun d' hd => ih _ (h d' hd)
  | mkdir p k ih =>
    exact fun d' hd => ⟨fun d₂ h₂ => ⟨((h d' hd).1 d₂ h₂).1, ih _ ((h d' hd).1 d₂ h₂).2⟩,
      fun e he => ih _ ((h d' hd).2 e he)⟩
  | save p c k ih =>
    exact fun d' hd => ⟨fun d₂ h₂ => ⟨((h d' hd).1 d₂ h₂).1, ih _ ((h d' hd).1 d₂ h₂).2⟩,
      fun e he => ih _ ((h d' hd).2 e he)⟩

/-- One system call of a working process. -/
theorem Calls.Works.next {W F : Loc → Prop} {Q : R → Disk α → Prop} {P P' : Calls α R} {d d' : Disk α}
    (h : P.Works W F Q d) (hn : P.next d = some (d', P')) :
    (d' = d ∨ Disk.Touches W F d d') ∧ P'.Works W F Q d' := by
  cases P with
  | done r => cases hn
  | stat p k =>
    cases hn
    exact ⟨.inl rfl, h d (.refl _ _ _)⟩
  | mkdir p k =>
    obtain ⟨h1, h2⟩ := h d (.refl _ _ _)
    simp only [Calls.next] at hn
    split at hn
    · rename_i d₂ hd
      cases hn
      exact ⟨.inr (h1 _ hd).1, (h1 _ hd).2⟩
    · rename_i e hd
      cases hn
      exact ⟨.inl rfl, h2 _ hd⟩
  | save p c k =>
    obtain ⟨h1, h2⟩ := h d (.refl _ _ _)
    simp only [Calls.next] at hn
    split at hn
    · rename_i d₂ hd
      cases hn
      exact ⟨.inr (h1 _ hd).1, (h1 _ hd).2⟩
    · rename_i e hd
      cases hn
      exact ⟨.inl rfl, h2 _ hd⟩

/-! ### `os.makedirs` -/

theorem Disk.Spared.start {W F : Loc → Prop} {d d' : Disk α} (h : Disk.Spared W F d d') (p : PathStr) :
    d'.start p = d.start p := by
  unfold Disk.start
  rw [h.cwd]

/-- The folder can be made: the way starts at a directory, and each location is a directory or can
become one. -/
def Disk.Ready (d : Disk α) (loc : Loc) (names : List (List Char)) : Prop :=
  d.node loc = some .dir ∧ ∀ x ∈ stations loc names, d.Available x

theorem Disk.Ready.spared {W F : Loc → Prop} {d d' : Disk α} {loc : Loc} {names : List (List Char)}
    (h : d.Ready loc names) (hW : ∀ x ∈ stations loc names, W x) (hs : Disk.Spared W F d d') :
    d'.Ready loc names := by
  refine ⟨hs.dirs _ h.1, fun x hx => ?_⟩
  unfold Disk.Available
  rw [hs.locked]
  rcases hs.way x (hW x hx) with e | ⟨-, e⟩
  · rw [e]
    exact h.2 x hx
  · exact .inl e

theorem Disk.Clear.spared {W F : Loc → Prop} {d d' : Disk α} {loc : Loc} {names : List (List Char)}
    (h : d.Clear loc names) (hs : Disk.Spared W F d d') : d'.Clear loc names :=
  fun x hx => hs.dirs x (h x hx)

theorem mkdirOkCalls_works {W F : Loc → Prop} {loc : Loc} {names a : List (List Char)} {c : List Char}
    {q : PathStr} (hW : ∀ x ∈ stations loc names, W x) (ho : Ordinary c)
    (hq : pathNames q = a ++ [c]) (hin : move (destination loc a) c ∈ stations loc names) {d : Disk α}
    (hstart : d.start q = loc) (hready : d.Ready loc names) (hclear : d.Clear loc a) :
    (mkdirOkCalls q).Works W F
      (fun r d' => r = none ∧ d'.cwd = d.cwd ∧ d'.Ready loc names ∧ d'.Clear loc (a ++ [c])) d := by
  have h0 : q ≠ [] := by
    rintro rfl
    simp [pathNames_nil] at hq
  intro d₁ hs
  have r₁ := hready.spared hW hs
  have c₁ := hclear.spared hs
  have s₁ : d₁.start q = loc := by rw [hs.start, hstart]
  have hm : d₁.mkdir q = if (d₁.node (destination loc a ++ [c])).isSome then .error .exists
      else if d₁.locked (destination loc a) then .error .denied
      else .ok (d₁.set (destination loc a ++ [c]) .dir) := by
    unfold Disk.mkdir
    rw [if_neg h0, hq, List.getLast?_concat]
    simp only [Disk.parent_ok hq (s₁ ▸ c₁), s₁]
    rw [if_neg (by rintro (e | e) <;> [exact ho.1 e; exact ho.2 e])]
  rw [move_ordinary ho] at hin
  have av := r₁.2 _ hin
  rcases av with hdir | ⟨hnone, hlock⟩
  · rw [hm, if_pos (by simp [hdir])]
    refine ⟨fun d₂ h₂ => (nomatch h₂), fun e _ => ?_⟩
    intro d₂ hs₂
    have c₂ : d₂.Clear loc (a ++ [c]) := by
      rw [Disk.clear_append, move_ordinary ho]
      exact ⟨c₁.spared hs₂, hs₂.dirs _ hdir⟩
    have hst : d₂.stat q = .ok .dir := by
      have := (d₂.isDir_iff q).2 ⟨h0, by rw [hs₂.start, s₁, hq]; exact c₂⟩
      unfold Disk.isDir at this
      split at this
      · assumption
      · cases this
    rw [hst]
    intro d₃ hs₃
    exact ⟨rfl, by rw [hs₃.cwd, hs₂.cwd, hs.cwd], (r₁.spared hW hs₂).spared hW hs₃, c₂.spared hs₃⟩
  · rw [List.dropLast_concat] at hlock
    rw [hm, if_neg (by simp [hnone]), if_neg (by simp [hlock])]
    refine ⟨fun d₂ h₂ => ?_, fun e he => (nomatch he)⟩
    cases h₂
    have t : Disk.Touches W F d₁ (d₁.set (destination loc a ++ [c]) .dir) :=
      ⟨_, _, rfl, .inl ⟨hW _ hin, hnone, rfl⟩⟩
    refine ⟨t, ?_⟩
    have s₂ : Disk.Spared W (fun _ => False) d₁ (d₁.set (destination loc a ++ [c]) .dir) := by
      refine Disk.Touches.spared (W := fun x => W x) (F := fun _ => False)
        ⟨_, _, rfl, .inl ⟨hW _ hin, hnone, rfl⟩⟩ (fun _ _ h => h) (fun _ h => h.elim) (fun _ h => h.elim)
    have r₂ := r₁.spared hW s₂
    have c₂ : (d₁.set (destination loc a ++ [c]) .dir).Clear loc (a ++ [c]) := by
      rw [Disk.clear_append, move_ordinary ho]
      exact ⟨c₁.spared s₂, by simp [Disk.set]⟩
    intro d₃ hs₃
    exact ⟨rfl, by rw [hs₃.cwd, s₂.cwd, hs.cwd], r₂.spared hW hs₃, c₂.spared hs₃⟩

theorem makedirsCalls_works {W F : Loc → Prop} {loc : Loc} {names : List (List Char)}
    (hW : ∀ x ∈ stations loc names, W x) (ho : ∀ c ∈ names, Ordinary c) (m : ℕ) :
    ∀ (q : PathStr) (b : List (List Char)), q.length ≤ m → pathNames q ≠ [] → pathNames q ++ b = names →
      ∀ d : Disk α, d.start q = loc → d.Ready loc names →
      (makedirsCalls q).Works W F
        (fun r d' => r = none ∧ d'.cwd = d.cwd ∧ d'.Ready loc names ∧ d'.Clear loc (pathNames q)) d := by
  induction m with
  | zero =>
    intro q b hq hne
    rw [Nat.le_zero, List.length_eq_zero_iff] at hq
    subst hq
    exact absurd pathNames_nil hne
  | succ m ih =>
    intro q b hlen hne hb d hstart hready
    obtain ⟨p1, p2, p3, p4, p5⟩ := pathParts_spec hne
    have hlt := pathParts_length q p1
    set head := (pathParts q).1 with hhead
    set tail := (pathParts q).2 with htail
    have pre : ∀ (a b : List (List Char)), destination loc a ∈ stations loc (a ++ b) := by
      intro a b
      induction b using List.reverseRecOn with
      | nil => rw [List.append_nil]; exact destination_mem _ _
      | append_singleton b x ih =>
        rw [← List.append_assoc, stations_append]
        exact List.mem_append_left _ ih
    have hin : move (destination loc (pathNames head)) tail ∈ stations loc names := by
      rw [← destination_append, ← p2, ← hb]
      exact pre _ _
    have hot : Ordinary tail := ho _ (by rw [← hb, p2]; simp)
    have last : ∀ {d' : Disk α}, d'.cwd = d.cwd → d'.Ready loc names → d'.Clear loc (pathNames head) →
        (mkdirOkCalls q).Works W F
          (fun r d' => r = none ∧ d'.cwd = d.cwd ∧ d'.Ready loc names ∧ d'.Clear loc (pathNames q)) d' := by
      intro d' s r c
      rw [p2, ← s]
      refine mkdirOkCalls_works hW hot p2 hin ?_ r c
      rw [← hstart]
      unfold Disk.start
      rw [s]
    rw [makedirsCalls]
    by_cases hh : head = []
    · rw [dif_neg (by intro h; exact h.1 hh)]
      refine last rfl hready ?_
      rw [hh, pathNames_nil]
      intro x hx
      rw [stations, List.mem_singleton] at hx
      rw [hx]
      exact hready.1
    · rw [dif_pos ⟨hh, p1⟩]
      intro d₁ hs
      have r₁ := hready.spared hW hs
      have s₁' : d₁.start head = loc := by
        rw [← hstart, hs.start]
        unfold Disk.start
        rw [p4 hh]
      rcases hst : d₁.stat head with e | n
      · simp only
        have hnn : pathNames head ≠ [] := by
          intro h0
          have : d₁.stat head = .ok .dir := by
            unfold Disk.stat
            rw [if_neg hh, h0, s₁']
            simp only [Disk.walk, r₁.1]
          rw [this] at hst
          cases hst
        refine Calls.Works.bind ((ih head (tail :: b) (by omega) hnn
          (by rw [← hb, p2]; simp) d₁ s₁' r₁).mono ?_)
        rintro r d₂ ⟨rfl, h1, h2, h3⟩
        simp only
        rw [if_neg hot.1]
        exact last (h1.trans hs.cwd) h2 h3
      · simp only
        refine last hs.cwd r₁ ?_
        obtain ⟨n', h1, h2⟩ := Disk.exists_clear (d := d₁) (p := head) (by unfold Disk.exists; rw [hst])
        rw [s₁'] at h1 h2
        have hmem : destination loc (pathNames head) ∈ stations loc names := by
          rw [← hb, p2, List.append_assoc]
          exact pre _ _
        rcases r₁.2 _ hmem with g | ⟨g, -⟩
        · rw [h1] at g
          exact h2 (Option.some.inj g)
        · rw [h1] at g
          cases g

/-! ### What stays true all the time -/

theorem Calls.Works.frame {W F : Loc → Prop} {Q : R → Disk α → Prop} {J : Disk α → Prop}
    (h1 : ∀ d d', Disk.Spared W F d d' → J d → J d') (h2 : ∀ d d', Disk.Touches W F d d' → J d → J d')
    {P : Calls α R} {d : Disk α} (h : P.Works W F Q d) (hj : J d) :
    P.Works W F (fun r d' => Q r d' ∧ J d') d := by
  induction P generalizing d with
  | done r => exact fun d' hd => ⟨h d' hd, h1 _ _ hd hj⟩
  | stat p k ih => exact fun d' hd => ih _ (h d' hd) (h1 _ _ hd hj)
  | mkdir p k ih =>
    refine fun d' hd => ⟨fun d₂ h₂ => ?_, fun e he => ih _ ((h d' hd).2 e he) (h1 _ _ hd hj)⟩
    obtain ⟨a, b⟩ := (h d' hd).1 d₂ h₂
    exact ⟨a, ih _ b (h2 _ _ a (h1 _ _ hd hj))⟩
  | save p c k ih =>
    refine fun d' hd => ⟨fun d₂ h₂ => ?_, fun e he => ih _ ((h d' hd).2 e he) (h1 _ _ hd hj)⟩
    obtain ⟨a, b⟩ := (h d' hd).1 d₂ h₂
    exact ⟨a, ih _ b (h2 _ _ a (h1 _ _ hd hj))⟩

/-! ### The files -/

theorem saveCalls_works {W F : Loc → Prop} {p : PathStr} {loc target : Loc}
    {names : List (List Char)} (hp : pathNames p = names) (ht : destination loc names = target)
    (rest : List (List Char × α)) : ∀ before : List (List Char × α),
    (∀ f ∈ before ++ rest, F (target ++ [f.1])) → (∀ f ∈ rest, FileName f.1) →
    ((before ++ rest).map Prod.fst).Nodup → ∀ d : Disk α, d.start p = loc → d.Clear loc names →
    d.locked target = false → (∀ f ∈ rest, d.node (target ++ [f.1]) ≠ some .dir ∧
      d.locked (target ++ [f.1]) = false) →
    (∀ f ∈ before, d.node (target ++ [f.1]) = some (.file f.2)) →
    (saveCalls p rest).Works W F (fun r d' => r = none ∧ d'.Clear loc names ∧
      ∀ f ∈ before ++ rest, d'.node (target ++ [f.1]) = some (.file f.2)) d := by
  induction rest with
  | nil =>
    intro before hF _ _ d _ hc _ _ hb d' hd
    refine ⟨rfl, hc.spared hd, fun f hf => ?_⟩
    rw [hd.files _ (hF f hf)]
    exact hb f (by simpa using hf)
  | cons f rest ih =>
    intro before hF hn hnd d hs hc hl hr hb d₁ hd
    have s₁ : d₁.start p = loc := by rw [hd.start, hs]
    have c₁ := hc.spared hd
    have hFf : F (target ++ [f.1]) := hF f (by simp)
    obtain ⟨r1, r2⟩ := hr f (by simp)
    have n₁ : d₁.node (target ++ [f.1]) ≠ some .dir := by rw [hd.files _ hFf]; exact r1
    have hw : d₁.save (pathJoin p f.1) f.2 = .ok (d₁.set (target ++ [f.1]) (.file f.2)) := by
      have := Disk.writeFile_clear (d := d₁) (p := p) (hn f (by simp)) (by rw [s₁, hp]; exact c₁) f.2
      rw [Disk.writeFile, s₁, hp, ht, hd.locked, r2, hl] at this
      rw [this]
      rcases hx : d₁.node (target ++ [f.1]) with _ | _ | _
      · rfl
      · exact absurd hx n₁
      · rfl
    rw [hw]
    refine ⟨fun d₂ h₂ => ?_, fun e he => (nomatch he)⟩
    cases h₂
    refine ⟨⟨_, _, rfl, .inr ⟨hFf, n₁, _, rfl⟩⟩, ?_⟩
    have hne : ∀ g ∈ before ++ rest, target ++ [g.1] ≠ target ++ [f.1] := by
      intro g hg e
      have e : g.1 = f.1 := by simpa using e
      rw [List.map_append, List.map_cons, List.nodup_middle, ← List.map_append, List.nodup_cons] at hnd
      exact hnd.1 (e ▸ List.mem_map_of_mem hg)
    have key := ih (before ++ [f]) (by simpa using hF) (fun g hg => hn g (by simp [hg]))
      (by simpa using hnd) (d₁.set (target ++ [f.1]) (.file f.2)) s₁ ?_ (by
        show d₁.locked _ = _
        rw [hd.locked, hl]) ?_ ?_
    · simpa using key
    · intro x hx
      simp only [Disk.set]
      rw [if_neg]
      · exact c₁ x hx
      · rintro rfl
        exact n₁ (c₁ _ hx)
    · intro g hg
      simp only [Disk.set]
      rw [if_neg (hne g (by simp [hg])), hd.files _ (hF g (by simp [hg])), hd.locked]
      exact hr g (by simp [hg])
    · intro g hg
      simp only [Disk.set]
      rcases List.mem_append.1 hg with hg | hg
      · rw [if_neg (hne g (by simp [hg])), hd.files _ (hF g (by simp [hg]))]
        exact hb g hg
      · rw [List.mem_singleton.1 hg, if_pos rfl]

/-! ### Alone -/

theorem Calls.alone_bind (P : Calls α R) (f : R → Calls α S) (d : Disk α) :
    (P.bind f).alone d = (f (P.alone d).2).alone (P.alone d).1 := by
  induction P generalizing d with
  | done r => rfl
  | stat p k ih => exact ih _ _
  | mkdir p k ih =>
    simp only [Calls.bind, Calls.alone]
    split <;> exact ih _ _
  | save p c k ih =>
    simp only [Calls.bind, Calls.alone]
    split <;> exact ih _ _

theorem mkdirOkCalls_alone (p : PathStr) (d : Disk α) : (mkdirOkCalls p).alone d = d.mkdirOk p := by
  unfold mkdirOkCalls Disk.mkdirOk
  simp only [Calls.alone]
  rcases h : d.mkdir p with e | d'
  · simp only [Calls.alone, Disk.isDir]
    obtain ⟨x, hx⟩ : ∃ x, d.stat p = x := ⟨_, rfl⟩
    simp only [hx]
    rcases x with e' | _ | _ <;> rfl
  · rfl

theorem makedirsCalls_alone (m : ℕ) : ∀ p : PathStr, p.length ≤ m → ∀ d : Disk α,
    (makedirsCalls p).alone d = d.makedirs p := by
  induction m with
  | zero =>
    intro p hp d
    rw [Nat.le_zero, List.length_eq_zero_iff] at hp
    subst hp
    have h0 : (pathParts []).1 = [] := by decide
    rw [makedirsCalls, Disk.makedirs, dif_neg (by simp [h0]), dif_neg (by simp [h0])]
    exact mkdirOkCalls_alone _ _
  | succ m ih =>
    intro p hp d
    rw [makedirsCalls, Disk.makedirs]
    by_cases h : (pathParts p).1 ≠ [] ∧ (pathParts p).2 ≠ []
    · rw [dif_pos h]
      have hlt := pathParts_length p h.2
      simp only [Calls.alone]
      rcases hst : d.stat (pathParts p).1 with e | n
      · have he : d.exists (pathParts p).1 = false := by rw [Disk.exists, hst]
        rw [dif_pos ⟨h.1, h.2, he⟩]
        simp only [Calls.alone_bind, ih (pathParts p).1 (by omega)]
        rcases d.makedirs (pathParts p).1 with ⟨d', _ | e⟩
        · simp only
          split
          · rfl
          · exact mkdirOkCalls_alone _ _
        · simp only
          split
          · split
            · rfl
            · exact mkdirOkCalls_alone _ _
          · rfl
      · have he : d.exists (pathParts p).1 = true := by rw [Disk.exists, hst]
        rw [dif_neg (by simp [he])]
        exact mkdirOkCalls_alone _ _
    · rw [dif_neg h, dif_neg (fun g => h ⟨g.1, g.2.1⟩)]
      exact mkdirOkCalls_alone _ _

theorem saveCalls_alone (p : PathStr) (files : List (List Char × α)) (d : Disk α) :
    (saveCalls p files).alone d = d.writeFiles p files := by
  induction files generalizing d with
  | nil => rfl
  | cons f files ih =>
    rw [saveCalls, Disk.writeFiles, Disk.writeFile, Calls.alone]
    rcases d.save (pathJoin p f.1) f.2 with e | d'
    · rfl
    · exact ih d'

end Verif
