import Verif.Spec.Together
import Verif.Lemmas.Calls
import Verif.Props.Command
import Mathlib.Data.Fintype.Basic

/-!
# C137: experiments at the same time
-/

namespace Verif

variable {α ι : Type} [DecidableEq ι]

/-- **C137.** The sequence of system calls, alone on the machine, is the constructor of the writer
followed by the saving. -/
theorem C137_alone (p : PathStr) (files : List (List Char × α)) (d : Disk α) :
    (outputCalls p files).alone d =
      (((d.openFolder p).1.writeFiles p files).1, (d.openFolder p).2,
        ((d.openFolder p).1.writeFiles p files).2) := by
  unfold outputCalls Disk.openFolder
  rw [Calls.alone_bind, makedirsCalls_alone _ p le_rfl, Calls.alone_bind, saveCalls_alone]
  rcases d.makedirs p with ⟨d', _ | e⟩ <;> rfl

/-- An output that fits is made, whatever the others do meanwhile. -/
theorem outputCalls_works {o : Output α} {d : Disk α} (h : o.Fits d) :
    (outputCalls o.path o.files).Works (· ∈ d.way o.path) (o.Owns d)
      (fun r d' => r = ([], none) ∧ o.There d d') d := by
  have hway := d.way_eq o.path
  have htar := d.target_eq o.path
  have hsep : ∀ x, x ∈ d.way o.path → ¬ o.Owns d x := by
    rintro _ hx ⟨f, hf, rfl⟩
    exact (h.takes.free f.1 (List.mem_map_of_mem hf)).2.2 hx
  have hready : d.Ready (d.start o.path) (pathNames o.path) := by
    refine ⟨?_, fun x hx => h.takes.available x (by rw [hway]; exact hx)⟩
    unfold Disk.start
    split
    · exact h.takes.tree.root
    · exact h.takes.tree.cwd
  have w1 := makedirsCalls_works (α := α) (W := (· ∈ d.way o.path)) (F := o.Owns d)
    (loc := d.start o.path) (names := pathNames o.path) (by rw [hway]; exact fun _ hx => hx)
    (by rw [pathNames_eq]; exact h.plain) _ o.path [] le_rfl (by rw [pathNames_eq]; exact h.named)
    (List.append_nil _) d rfl hready
  refine Calls.Works.bind (((w1.frame
    (J := fun d' => d'.locked = d.locked ∧ ∀ x, o.Owns d x → d'.node x ≠ some .dir) ?_ ?_ ?_)).mono ?_)
  · rintro d₁ d₂ hs ⟨a, b⟩
    exact ⟨hs.locked.trans a, fun x hx => by rw [hs.files x hx]; exact b x hx⟩
  · rintro d₁ _ ⟨x, n, rfl, hx⟩ ⟨a, b⟩
    refine ⟨a, fun y hy => ?_⟩
    simp only [Disk.set]
    split
    · rename_i e
      subst e
      rcases hx with ⟨hw, -, -⟩ | ⟨-, -, c, rfl⟩
      · exact absurd hy (hsep _ hw)
      · simp
    · exact b y hy
  · refine ⟨rfl, ?_⟩
    rintro _ ⟨f, hf, rfl⟩
    exact (h.takes.free f.1 (List.mem_map_of_mem hf)).1
  · rintro r d₁ ⟨⟨rfl, hcwd, -, hc⟩, hl, hn⟩
    have hs : d₁.start o.path = d.start o.path := by
      unfold Disk.start
      rw [hcwd]
    refine Calls.Works.bind ((saveCalls_works (target := d.target o.path) rfl htar.symm o.files []
      (fun f hf => ⟨f, by simpa using hf, rfl⟩) h.fileNames h.distinct d₁ hs hc
      (by rw [hl]; exact h.takes.unlocked) (fun f hf => ⟨hn _ ⟨f, hf, rfl⟩, by
        rw [hl]
        exact (h.takes.free f.1 (List.mem_map_of_mem hf)).2.1⟩) (by simp)).mono ?_)
    rintro r d₂ ⟨rfl, h1, h2⟩ d₃ hd
    refine ⟨rfl, fun x hx => hd.dirs x (h1 x (by rw [← hway]; exact hx)), fun f hf => ?_⟩
    rw [hd.files _ ⟨f, hf, rfl⟩]
    exact h2 f (by simpa using hf)

/-- What holds all the time. -/
theorem interleaved_works {R : Type} {d d' : Disk α} {P P' : ι → Calls α R}
    (W F : ι → Loc → Prop) (Q : ι → R → Disk α → Prop)
    (h1 : ∀ i j, i ≠ j → ∀ x, F i x → ¬ W j x) (h2 : ∀ i j, i ≠ j → ∀ x, F i x → ¬ F j x)
    (hP : ∀ i, (P i).Works (W i) (F i) (Q i) d) (h : Interleaved d P d' P') :
    (∀ i, (P' i).Works (W i) (F i) (Q i) d') ∧
      ∀ x, d'.node x = d.node x ∨ (d.node x = none ∧ d'.node x = some .dir ∧ ∃ i, W i x) ∨
        ∃ i, F i x := by
  induction h with
  | here d P => exact ⟨hP, fun x => .inl rfl⟩
  | @step d d₁ d₂ P P' C i hn hr ih =>
    obtain ⟨t, w⟩ := (hP i).next hn
    obtain ⟨a, b⟩ := ih (by
      intro j
      by_cases hj : j = i
      · subst hj
        rw [Function.update_self]
        exact w
      · rw [Function.update_of_ne hj]
        rcases t with rfl | t
        · exact hP j
        · exact (hP j).stable (t.spared (fun x hw hf => h1 j i hj x hf hw) (h1 i j (Ne.symm hj))
            (h2 i j (Ne.symm hj))))
    refine ⟨a, fun x => ?_⟩
    rcases t with rfl | ⟨y, n, rfl, t⟩
    · exact b x
    · by_cases hxy : x = y
      · subst hxy
        rcases t with ⟨hw, hnone, rfl⟩ | ⟨hf, -, -⟩
        · right
          rcases b x with e | ⟨e, -⟩ | e
          · refine .inl ⟨hnone, ?_, i, hw⟩
            rw [e]
            simp [Disk.set]
          · simp [Disk.set] at e
          · exact .inr e
        · exact .inr (.inr ⟨i, hf⟩)
      · have : (d.set y n).node x = d.node x := by simp [Disk.set, hxy]
        rw [← this]
        exact b x

/-- **C137.** Experiments that are written at the same time on one file system, each with a folder
and files of its own.  However their system calls are interleaved: an experiment that has ended has
printed no message and met no exception, and its folder and all its files are there, with their
contents; and everything else on the disk is as it was, apart from directories that are new on the way to
one of the folders. -/
theorem C137_together {d d' : Disk α} (O : ι → Output α) (hf : ∀ i, (O i).Fits d)
    (ha : ∀ i j, i ≠ j → Output.Apart d (O i) (O j))
    {P : ι → Calls α (List String × Option Errno)}
    (h : Interleaved d (fun i => outputCalls (O i).path (O i).files) d' P) :
    (∀ i r, P i = .done r → r = ([], none) ∧ (O i).There d d') ∧
      ∀ x, (∀ i, ¬ (O i).Owns d x) → d'.node x = d.node x ∨
        d.node x = none ∧ d'.node x = some .dir ∧ ∃ i, x ∈ d.way (O i).path := by
  obtain ⟨a, b⟩ := interleaved_works (fun i x => x ∈ d.way (O i).path) (fun i => (O i).Owns d)
    (fun i r d' => r = ([], none) ∧ (O i).There d d') (fun i j hij x hx => (ha i j hij x hx).1)
    (fun i j hij x hx => (ha i j hij x hx).2) (fun i => outputCalls_works (hf i)) h
  refine ⟨fun i r hr => ?_, fun x hx => ?_⟩
  · have := a i
    rw [hr] at this
    exact this d' (.refl _ _ _)
  · rcases b x with e | e | ⟨i, e⟩
    · exact .inl e
    · exact .inr e
    · exact absurd e (hx i)

theorem Interleaved.trans {R : Type} {d d₁ d₂ : Disk α} {P P₁ P₂ : ι → Calls α R}
    (h : Interleaved d P d₁ P₁) (h' : Interleaved d₁ P₁ d₂ P₂) : Interleaved d P d₂ P₂ := by
  induction h with
  | here => exact h'
  | step i hn _ ih => exact .step i hn (ih h')

/-- One of the processes goes on to its end. -/
theorem interleaved_one {R : Type} (i : ι) (C : Calls α R) : ∀ (d : Disk α) (P : ι → Calls α R), P i = C →
    Interleaved d P (C.alone d).1 (Function.update P i (.done (C.alone d).2)) := by
  have go : ∀ {d d₁ : Disk α} {P : ι → Calls α R} {C C' : Calls α R}, P i = C →
      C.next d = some (d₁, C') → C.alone d = C'.alone d₁ →
      Interleaved d₁ (Function.update P i C') (C'.alone d₁).1
        (Function.update (Function.update P i C') i (.done (C'.alone d₁).2)) →
      Interleaved d P (C.alone d).1 (Function.update P i (.done (C.alone d).2)) := by
    rintro d d₁ P C C' hP hn ha h
    rw [Function.update_idem] at h
    rw [ha]
    exact .step i (by rw [hP]; exact hn) h
  induction C with
  | done r =>
    intro d P hP
    simp only [Calls.alone]
    rw [← hP, Function.update_eq_self]
    exact .here d P
  | stat p k ih =>
    intro d P hP
    exact go hP rfl rfl (ih _ _ _ (Function.update_self ..))
  | mkdir p k ih =>
    intro d P hP
    rcases hm : d.mkdir p with e | d₁
    · exact go (d₁ := d) (C' := k (some e)) hP (by simp only [Calls.next, hm])
        (by simp only [Calls.alone, hm]) (ih _ _ _ (Function.update_self ..))
    · exact go (d₁ := d₁) (C' := k none) hP (by simp only [Calls.next, hm])
        (by simp only [Calls.alone, hm]) (ih _ _ _ (Function.update_self ..))
  | save p c k ih =>
    intro d P hP
    rcases hm : d.save p c with e | d₁
    · exact go (d₁ := d) (C' := k (some e)) hP (by simp only [Calls.next, hm])
        (by simp only [Calls.alone, hm]) (ih _ _ _ (Function.update_self ..))
    · exact go (d₁ := d₁) (C' := k none) hP (by simp only [Calls.next, hm])
        (by simp only [Calls.alone, hm]) (ih _ _ _ (Function.update_self ..))

/-- **C137.** Wherever the experiments are, they can all end, and then everything is there. -/
theorem C137_completes [Fintype ι] {d d' : Disk α} (O : ι → Output α) (hf : ∀ i, (O i).Fits d)
    (ha : ∀ i j, i ≠ j → Output.Apart d (O i) (O j))
    {P : ι → Calls α (List String × Option Errno)}
    (h : Interleaved d (fun i => outputCalls (O i).path (O i).files) d' P) :
    ∃ d'', Interleaved d' P d'' (fun _ => .done ([], none)) ∧ ∀ i, (O i).There d d'' := by
  have key : ∀ s : Finset ι, ∃ d'' P'', Interleaved d' P d'' P'' ∧ ∀ i ∈ s, ∃ r, P'' i = .done r := by
    intro s
    induction s using Finset.induction_on with
    | empty => exact ⟨d', P, .here _ _, by simp⟩
    | insert i s _ ih =>
      obtain ⟨d₁, P₁, h1, h2⟩ := ih
      refine ⟨_, _, h1.trans (interleaved_one i _ d₁ P₁ rfl), fun j hj => ?_⟩
      by_cases hji : j = i
      · subst hji
        exact ⟨_, Function.update_self ..⟩
      · rw [Function.update_of_ne hji]
        exact h2 j ((Finset.mem_insert.1 hj).resolve_left hji)
  obtain ⟨d'', P'', h1, h2⟩ := key Finset.univ
  obtain ⟨a, -⟩ := C137_together O hf ha (h.trans h1)
  have e : P'' = fun _ => .done ([], none) := by
    funext i
    obtain ⟨r, hr⟩ := h2 i (Finset.mem_univ i)
    rw [hr, (a i r hr).1]
  refine ⟨d'', e ▸ h1, fun i => ?_⟩
  obtain ⟨r, hr⟩ := h2 i (Finset.mem_univ i)
  exact (a i r hr).2

/-- The output of an experiment with this name: one file with this content. -/
def oneFile (name : List Char) (content : ℕ) : Output ℕ :=
  ⟨experimentFolder name, [("ftle_v.mat".toList, content)]⟩

theorem oneFile_fits {c : Char} (h : c = 'a' ∨ c = 'b') (n : ℕ) : (oneFile [c] n).Fits emptyDisk := by
  have hw : emptyDisk.way (experimentFolder [c]) =
      [[tmpName], [tmpName, "outputs".toList], [tmpName, "outputs".toList, [c]]] := by
    rcases h with rfl | rfl <;> decide +kernel
  have ht : emptyDisk.target (experimentFolder [c]) = [tmpName, "outputs".toList, [c]] := by
    rcases h with rfl | rfl <;> decide +kernel
  have hn : namesIn (experimentFolder [c]) = ["outputs".toList, [c]] := by
    rcases h with rfl | rfl <;> decide +kernel
  refine ⟨⟨emptyDisk_tree, .inl ?_, ?_, rfl, ?_⟩, ?_, ?_, ?_, by simp [oneFile]⟩
  · show _ ∉ namesIn (experimentFolder [c])
    rw [hn]
    rcases h with rfl | rfl <;> decide
  · show ∀ x ∈ emptyDisk.way (experimentFolder [c]), _
    rw [hw]
    rcases h with rfl | rfl <;> (
      intro x hx
      simp only [List.mem_cons, List.not_mem_nil, or_false] at hx
      rcases hx with rfl | rfl | rfl
      · exact .inl rfl
      · exact .inr ⟨rfl, rfl⟩
      · exact .inr ⟨rfl, rfl⟩)
  · intro m hm
    obtain rfl : m = "ftle_v.mat".toList := by simpa [oneFile] using hm
    show emptyDisk.node (emptyDisk.target (experimentFolder [c]) ++ _) ≠ _ ∧ _ ∧
      _ ∉ emptyDisk.way (experimentFolder [c])
    rw [hw]
    refine ⟨?_, rfl, ?_⟩
    · rw [ht]
      rcases h with rfl | rfl <;> (rw [show emptyDisk.node _ = none from rfl]; simp)
    · show emptyDisk.target (experimentFolder [c]) ++ _ ∉ _
      rw [ht]
      rcases h with rfl | rfl <;> decide
  · show namesIn (experimentFolder [c]) ≠ []
    rw [hn]
    simp
  · show ∀ m ∈ namesIn (experimentFolder [c]), _
    rw [hn]
    rcases h with rfl | rfl <;> decide
  · intro f hf
    rw [List.mem_singleton.1 hf]
    exact (⟨by decide, by decide, by decide, by decide⟩ : FileName "ftle_v.mat".toList)

/-- Two experiments `a` and `b`, started at the same time in an empty working directory: both make the
folder `outputs`, and whatever the order of their calls is, both files are there in the end. -/
def twoOutputs (i : Bool) : Output ℕ := if i then oneFile ['a'] 1 else oneFile ['b'] 2

theorem twoOutputs_fit (i : Bool) : (twoOutputs i).Fits emptyDisk := by
  cases i
  · exact oneFile_fits (.inr rfl) 2
  · exact oneFile_fits (.inl rfl) 1

theorem twoOutputs_apart (i j : Bool) (h : i ≠ j) :
    Output.Apart emptyDisk (twoOutputs i) (twoOutputs j) := by
  rintro _ ⟨f, hf, rfl⟩
  cases i <;> cases j <;> first
    | exact absurd rfl h
    | (obtain rfl := List.mem_singleton.1 hf
       refine ⟨by decide +kernel, ?_⟩
       rintro ⟨g, hg, e⟩
       obtain rfl := List.mem_singleton.1 hg
       revert e
       decide +kernel)

example (d' : Disk ℕ) (P : Bool → Calls ℕ (List String × Option Errno))
    (h : Interleaved emptyDisk (fun i => outputCalls (twoOutputs i).path (twoOutputs i).files) d' P) :
    ∃ d'', Interleaved d' P d'' (fun _ => .done ([], none)) ∧
      d''.node [tmpName, "outputs".toList, ['a'], "ftle_v.mat".toList] = some (.file 1) ∧
      d''.node [tmpName, "outputs".toList, ['b'], "ftle_v.mat".toList] = some (.file 2) := by
  obtain ⟨d'', h1, h2⟩ := C137_completes twoOutputs twoOutputs_fit twoOutputs_apart h
  refine ⟨d'', h1, ?_, ?_⟩
  · have := (h2 true).2 _ (List.mem_singleton.2 rfl)
    rwa [show emptyDisk.target (twoOutputs true).path = [tmpName, "outputs".toList, ['a']] by
      decide +kernel] at this
  · have := (h2 false).2 _ (List.mem_singleton.2 rfl)
    rwa [show emptyDisk.target (twoOutputs false).path = [tmpName, "outputs".toList, ['b']] by
      decide +kernel] at this

/-- **C137.** With one name for two experiments it fails: both fit and end without a message or an
exception, but one file has taken the place of the other. -/
theorem C137_same_name_fails : ∃ (d d' : Disk ℕ) (O : Bool → Output ℕ), (∀ i, (O i).Fits d) ∧
    Interleaved d (fun i => outputCalls (O i).path (O i).files) d' (fun _ => .done ([], none)) ∧
    ¬ ∀ i, (O i).There d d' := by
  let O : Bool → Output ℕ := fun i => oneFile ['a'] (if i then 1 else 2)
  have h1 := interleaved_one true _ emptyDisk (fun i => outputCalls (O i).path (O i).files) rfl
  have h2 := interleaved_one false (outputCalls (O false).path (O false).files)
    ((outputCalls (O true).path (O true).files).alone emptyDisk).1
    (Function.update (fun i => outputCalls (O i).path (O i).files) true
      (.done ((outputCalls (O true).path (O true).files).alone emptyDisk).2)) rfl
  have r1 : ((outputCalls (O true).path (O true).files).alone emptyDisk).2 = ([], none) := by
    decide +kernel
  have r2 : ((outputCalls (O false).path (O false).files).alone
      ((outputCalls (O true).path (O true).files).alone emptyDisk).1).2 = ([], none) := by
    decide +kernel
  have e : Function.update (Function.update (fun i => outputCalls (O i).path (O i).files) true
      (.done ([], none))) false (.done ([], none)) = fun _ => .done ([], none) := by
    funext i
    cases i <;> rfl
  have h3 := h1.trans h2
  rw [r1, r2, e] at h3
  refine ⟨emptyDisk, _, O, fun i => oneFile_fits (.inl rfl) _, h3, fun h => ?_⟩
  have e1 := (h true).2 _ (List.mem_singleton.2 rfl)
  have e2 := (h false).2 _ (List.mem_singleton.2 rfl)
  have := e1.symm.trans e2
  simp at this

end Verif
