import Verif.Proof.Apart
import Verif.Props.Together

/-!
# C103: a run of `format` among programs that leave its files alone

Here writes have the two steps that they have in the code.
-/

namespace Verif.Props

open Verif Str Exec Spec

/-- C103: a run of `format` leaves all files alone that it is not about, so it is one of the others in `C103_apart`
for a run about other files. -/
theorem C103_leaves (h : Host) (whole : Bool) (o : Order) (srt : SortSlice) (args : List Str) (flags : FormatFlags)
    (mine : Str → Prop) (hm : ∀ m, Finds h args m → ∀ f, Concerns h m f → ¬ mine f.path) :
    Leaves mine (formatCmdSteps h whole o srt args flags) :=
  Proof.Apart.leaves_of (Proof.Apart.leaves_formatCmd h whole o srt args flags hm)

/-- C103: a run of `format --overwrite` among **any programs that leave its files alone**, with every schedule. When it
has ended well, all its files are formatted. When it has ended in another way, they are as they were or formatted. Until
then one can also be empty. Files of others it leaves alone (`C103_leaves`). -/
theorem C103_apart (h : Host) (hw : ∀ path text, h.writeFile path text = .ok ()) (whole : Bool) (o : Order)
    (srt : SortSlice) (args : List Str) (flags : FormatFlags) (ho : flags.overwrite = true) (m : Meta)
    (hm : Finds h args m) (hd : Distinct m) (before after : List (Prog Unit))
    (hl : ∀ p ∈ before ++ after, Leaves (Mine h m) p) (disk : Disk) (s : System)
    (hs : Leads (start disk (before ++ formatCmdSteps h whole o srt args flags :: after)) s)
    (f : File.ProtoFile) (hf : Concerns h m f) :
    (Ended s before.length (.ok ()) → ∃ content text, disk f.path = some content ∧
        Formats h srt flags.fix m f.path content text ∧ s.disk f.path = some text) ∧
      (s.disk f.path = disk f.path ∨
        (∃ content text, disk f.path = some content ∧
          Formats h srt flags.fix m f.path content text ∧ s.disk f.path = some text) ∨
        s.disk f.path = some [] ∧ ∀ outcome, ¬ Ended s before.length outcome) := by
  have key := Proof.Apart.system (mine := Mine h m) (n := before.length) (R := Proof.Apart.Rely h m)
    (G := Proof.Apart.Guar h srt flags.fix m disk)
    (I := fun d => ∀ path, Mine h m path → d path = disk path ∨ d path = some [] ∨
      Proof.Apart.Done h srt flags.fix m disk path d)
    (Q := fun o d => (∀ f, Concerns h m f → d f.path = disk f.path ∨ Proof.Apart.Done h srt flags.fix m disk f.path d) ∧
      (o = .ok () → ∀ f, Concerns h m f → Proof.Apart.Done h srt flags.fix m disk f.path d))
    (fun d d' hd => hd) ?_ ?_ hs ?_ ?_ ?_
  · obtain ⟨_, k1, k2⟩ := key
    refine ⟨fun he => ?_, ?_⟩
    · obtain ⟨p, hp, he⟩ := he
      obtain ⟨P, _, hP, hsat⟩ := k1 p hp
      rw [he] at hsat
      exact (hsat _ hP).2 rfl f hf
    · rcases Classical.em (∃ outcome, Ended s before.length outcome) with ⟨oc, p, hp, he⟩ | hn
      · obtain ⟨P, _, hP, hsat⟩ := k1 p hp
        rw [he] at hsat
        rcases (hsat _ hP).1 f hf with e | e
        · exact .inl e
        · exact .inr (.inl e)
      · rcases k2 f.path ⟨f, hf, rfl⟩ with e | e | e
        · exact .inl e
        · exact .inr (.inr ⟨e, fun oc ho => hn ⟨oc, ho⟩⟩)
        · exact .inr (.inl e)
  · intro d d' hd hg path hp
    have e := hg path hp
    rcases hd path hp with a | a | ⟨c, t, h1, h2, h3⟩
    · exact .inl (e.trans a)
    · exact .inr (.inl (e.trans a))
    · exact .inr (.inr ⟨c, t, h1, h2, e.trans h3⟩)
  · intro d d' hd hg path hp
    rcases hg path with e | ⟨_, e | e⟩
    · rcases hd path hp with a | a | ⟨c, t, h1, h2, h3⟩
      · exact .inl (e.trans a)
      · exact .inr (.inl (e.trans a))
      · exact .inr (.inr ⟨c, t, h1, h2, e.trans h3⟩)
    · exact .inr (.inl e)
    · exact .inr (.inr e)
  · intro i p hi hne
    unfold start at hi
    dsimp only at hi
    rw [List.getElem?_map] at hi
    cases hg : (before ++ formatCmdSteps h whole o srt args flags :: after)[i]? with
    | none => rw [hg] at hi; cases hi
    | some prog =>
      rw [hg] at hi
      cases hi
      refine hl prog ?_
      rw [List.getElem?_append] at hg
      split at hg
      · exact List.mem_append_left _ (List.mem_of_getElem? hg)
      · rw [List.getElem?_cons] at hg
        split at hg
        · omega
        · exact List.mem_append_right _ (List.mem_of_getElem? hg)
  · intro p hi
    unfold start at hi
    dsimp only at hi
    rw [List.getElem?_map, List.getElem?_append_right (Nat.le_refl _), Nat.sub_self] at hi
    cases hi
    exact ⟨fun d => ∀ f, Concerns h m f → d f.path = disk f.path, fun d d' hd hg f hf => (hg _ ⟨f, hf, rfl⟩).trans (hd f hf), fun _ _ => rfl,
      Proof.Apart.formatCmd hw whole o args hm hd ho⟩
  · exact fun _ _ => .inl rfl

/-- A program that writes another file. -/
def bystander : Prog Unit := writeFileSteps raceHost false s%"/w/notes" s%"text"

theorem bystander_leaves : Leaves (Mine raceHost { protoSet := raceSet }) bystander := by
  refine Proof.Apart.leaves_of (Proof.Apart.leaves_write _ _ _ _ ?_)
  rintro ⟨f, ⟨⟨dir, files, h1, _, h3⟩, _⟩, h4⟩
  simp only [raceSet, List.mem_cons, List.not_mem_nil, or_false, Prod.mk.injEq] at h1
  obtain ⟨rfl, rfl⟩ := h1
  simp only [List.mem_cons, List.not_mem_nil, or_false] at h3
  subst h3
  exact absurd h4 (by decide)

/-- The run and the other program take turns. -/
def apart : System := schedule [1, 0, 1, 1, 0, 1]
  (start raceDisk ([bystander] ++ formatCmdSteps raceHost false .id .stable [s%"a"] { overwrite := true, fix := true } :: []))

/-- In the middle the file is empty. -/
example : (schedule [1, 0, 1, 1]
    (start raceDisk ([bystander] ++ formatCmdSteps raceHost false .id .stable [s%"a"] { overwrite := true, fix := true } :: []))).disk
      s%"/w/a/one.proto" = some [] := rfl

/-- They meet the hypotheses, end well and leave the file formatted. -/
example : Ended apart 1 (.ok ()) ∧ Ended apart 0 (.ok ()) ∧
    apart.disk s%"/w/a/one.proto" = some s%"// H\n\nsyntax = \"proto3\";\n" :=
  ⟨⟨_, rfl, rfl⟩, ⟨_, rfl, rfl⟩, rfl⟩

example : ∃ content text, raceDisk s%"/w/a/one.proto" = some content ∧
    Formats raceHost .stable true { protoSet := raceSet } s%"/w/a/one.proto" content text ∧
    apart.disk s%"/w/a/one.proto" = some text :=
  (C103_apart raceHost (fun _ _ => rfl) false .id .stable [s%"a"] { overwrite := true, fix := true } rfl
    { protoSet := raceSet } ⟨s%"a", .inl rfl, .inl ⟨rfl, rfl, rfl⟩⟩ (by unfold Distinct; decide) [bystander] []
    (by intro p hp; simp only [List.append_nil, List.mem_cons, List.not_mem_nil, or_false] at hp; subst hp; exact bystander_leaves)
    raceDisk apart (reaches_schedule _ _) ⟨s%"/w/a/one.proto", s%"a/one.proto"⟩
    ⟨⟨_, _, List.mem_cons_self, ⟨[], rfl⟩, List.mem_cons_self⟩, .inl rfl⟩).1 ⟨_, rfl, rfl⟩

end Verif.Props
