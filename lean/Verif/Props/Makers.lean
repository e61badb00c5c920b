import Verif.Proof.Makers
import Verif.Props.Create
import Verif.Props.ExecMoreSample
import Verif.Props.Together

/-!
# C106: `create` and `config init` overwrite nothing, whatever runs at the same time

Both commands look whether there is something, and write later. What is there before they begin is safe from them,
whatever runs at the same time. What appears in between is not.
-/

namespace Verif.Props

open Verif Exec Spec Proof.Makers

/-- The programs of steps are the commands, if nothing else runs. -/
theorem C106_alone (host : Host) (whole : Bool) :
    (∀ h paths, ((Maker.create h paths).steps host whole).run = Create.createCmd h host paths) ∧
      ∀ t args uncomment document, ((Maker.init t args uncomment document).steps host whole).run =
        initCmd host t args uncomment document :=
  ⟨fun h paths => run_createCmd h host whole paths, fun t args u d => run_init host t whole args u d⟩

/-- C106: they change no other files than those to make. -/
theorem C106_leaves (host : Host) (whole : Bool) (m : Maker) (mine : Str → Prop)
    (hm : ∀ q, mine q → ¬ m.Names host q) : Leaves mine (m.steps host whole) :=
  Proof.Apart.leaves_of (leaves_maker host whole m hm)

/-- C106: **a file that had content before the runs began keeps it**, with any number of runs of `create` and
`config init`, among programs that leave the file alone, with every schedule and at every moment. Missing: content that
appears when a run has already begun, see `C106_not`. -/
theorem C106_kept_partial (host : Host) (whole : Bool) (makers : List Maker) (others : List (Prog Unit)) (q data : Str)
    (hl : ∀ p ∈ others, Leaves (· = q) p) (disk : Disk) (hd : disk q = some data) (hn : data ≠ []) (s : System)
    (hs : Leads (start disk (makers.map (·.steps host whole) ++ others)) s) : s.disk q = some data := by
  refine (kept (q := q) (data := data) hs ?_ hd).2
  intro p hp
  obtain ⟨prog, hprog, rfl⟩ := List.mem_map.1 hp
  rcases List.mem_append.1 hprog with h | h
  · obtain ⟨m, _, rfl⟩ := List.mem_map.1 h
    exact keeps_maker host whole m q data hn
  · exact keeps_of_leaves (hl prog h)

/-- The state of the system, for one file. -/
theorem makers_inv (host : Host) (hw : ∀ path text, host.writeFile path text = .ok ()) (hwd : IsAbsPath host.wd)
    (whole : Bool) (makers : List Maker) (others : List (Prog Unit)) (q : Str)
    (hl : ∀ p ∈ others, Leaves (· = q) p) (disk : Disk) (s : System)
    (hs : Leads (start disk (makers.map (·.steps host whole) ++ others)) s) :
    Inv (fun i => ∃ m, makers[i]? = some m ∧ m.Names host q) q (fun text => ∃ m ∈ makers, m.Makes host q text) disk s := by
  have hstart : ∀ (i : Nat) (p : Process), (start disk (makers.map (·.steps host whole) ++ others)).procs[i]? = some p →
      (∃ m, makers[i]? = some m ∧ p.prog = m.steps host whole) ∨ makers[i]? = none ∧ p.prog ∈ others := by
    intro i p hp
    unfold start at hp
    rw [List.getElem?_map, Option.map_eq_some_iff] at hp
    obtain ⟨prog, hprog, rfl⟩ := hp
    rw [List.getElem?_append] at hprog
    split at hprog
    · rw [List.getElem?_map, Option.map_eq_some_iff] at hprog
      obtain ⟨m, hm, rfl⟩ := hprog
      exact .inl ⟨m, hm, rfl⟩
    · rename_i hi
      rw [List.length_map] at hi
      exact .inr ⟨List.getElem?_eq_none (by omega), List.mem_of_getElem? hprog⟩
  have hbefore : ∀ (i : Nat) (p : Process), (start disk (makers.map (·.steps host whole) ++ others)).procs[i]? = some p →
      (∃ m, makers[i]? = some m ∧ m.Names host q) →
      Phased q (fun text => ∃ m ∈ makers, m.Makes host q text) p.prog .before := by
    rintro i p hp ⟨m, hm, hn⟩
    rcases hstart i p hp with ⟨m', hm', e⟩ | ⟨hno, _⟩
    · rw [hm] at hm'
      cases hm'
      rw [e]
      exact phased_maker host hw hwd whole m hn fun text ht => ⟨m, List.mem_of_getElem? hm, ht⟩
    · rw [hm] at hno; cases hno
  refine inv_leads ⟨?_, fun i p hp hn => ⟨_, hbefore i p hp hn⟩, .inl ⟨rfl, hbefore⟩⟩ hs
  intro i p hp hn
  rcases hstart i p hp with ⟨m, hm, e⟩ | ⟨_, ho⟩
  · rw [e]
    refine C106_leaves host whole m _ ?_
    rintro r rfl hr
    exact hn ⟨m, hm, hr⟩
  · exact hl _ ho

/-- C106: at every moment a file is as it was, empty, or has the whole text that one of the runs is to write there.
Missing: programs that write to the file themselves. -/
theorem C106_whole_partial (host : Host) (hw : ∀ path text, host.writeFile path text = .ok ()) (hwd : IsAbsPath host.wd)
    (whole : Bool) (makers : List Maker) (others : List (Prog Unit)) (q : Str)
    (hl : ∀ p ∈ others, Leaves (· = q) p) (disk : Disk) (s : System)
    (hs : Leads (start disk (makers.map (·.steps host whole) ++ others)) s) :
    s.disk q = disk q ∨ s.disk q = some [] ∨ Made host makers q s.disk := by
  have key : (∃ text, (∃ m ∈ makers, m.Makes host q text) ∧ s.disk q = some text) → Made host makers q s.disk :=
    fun ⟨text, ⟨m, hm, h1⟩, h2⟩ => ⟨m, hm, text, h1, h2⟩
  rcases (makers_inv host hw hwd whole makers others q hl disk s hs).file with ⟨h, _⟩ | h | ⟨h | h | h, _⟩
  · exact .inl h
  · exact .inr (.inr (key h))
  · exact .inl h
  · exact .inr (.inl h)
  · exact .inr (.inr (key h))

/-- C106: **when all the runs that are to make the file have ended, it is as it was or has the whole text, and it has the
text if one of them has ended well.** Missing: programs that write to the file themselves. -/
theorem C106_made_partial (host : Host) (hw : ∀ path text, host.writeFile path text = .ok ()) (hwd : IsAbsPath host.wd)
    (whole : Bool) (makers : List Maker) (others : List (Prog Unit)) (q : Str)
    (hl : ∀ p ∈ others, Leaves (· = q) p) (disk : Disk) (s : System)
    (hs : Leads (start disk (makers.map (·.steps host whole) ++ others)) s)
    (he : ∀ i m, makers[i]? = some m → m.Names host q → ∃ o, Ended s i o) :
    (s.disk q = disk q ∨ Made host makers q s.disk) ∧
      ∀ i m, makers[i]? = some m → m.Names host q → Ended s i (.ok ()) → Made host makers q s.disk := by
  have key : (∃ text, (∃ m ∈ makers, m.Makes host q text) ∧ s.disk q = some text) → Made host makers q s.disk :=
    fun ⟨text, ⟨m, hm, h1⟩, h2⟩ => ⟨m, hm, text, h1, h2⟩
  rcases (makers_inv host hw hwd whole makers others q hl disk s hs).file with ⟨h1, h2⟩ | h | ⟨_, i, p, hp, ⟨m, hm, hn⟩, ho⟩
  · refine ⟨.inl h1, fun i m hm hn ⟨p, hp, hd⟩ => ?_⟩
    have := h2 i p hp ⟨m, hm, hn⟩
    rw [hd] at this
    exact absurd rfl (this.1 rfl)
  · exact ⟨.inr (key h), fun _ _ _ _ _ => key h⟩
  · obtain ⟨o, p', hp', hd⟩ := he i m hm hn
    rw [hp] at hp'
    cases hp'
    rw [hd] at ho
    exact absurd rfl ho.2

/-! ## Content is lost -/

/-- Two runs of `create` for the same file, with different packages. -/
def rivals : List Maker :=
  [.create { createHandler with pkg := s%"one" } [s%"other/y/c.proto"],
   .create { createHandler with pkg := s%"two" } [s%"other/y/c.proto"]]

/-- Both look, then the first one writes. -/
def rivalsFirst : System :=
  schedule [0, 1, 0, 0] (start (fun _ => none) (rivals.map (·.steps createHost false) ++ []))

/-- And then the second one. -/
def rivalsBoth : System := schedule [1, 1] rivalsFirst

/-- The text for the package. -/
def rivalText (package : Str) : Str :=
  newText s%"// Header" true s%"other/y/c.proto" package s%"org"

/-- C106 is false of content that appears when a run has already begun: **two runs of `create` both end well, and the
second one has overwritten the file of the first one**, although `create` never overwrites what is there. -/
theorem C106_not : ∃ (host : Host) (makers : List Maker) (disk : Disk) (s t : System) (q data other : Str),
    (∀ path text, host.writeFile path text = .ok ()) ∧ IsAbsPath host.wd ∧
      Leads (start disk (makers.map (·.steps host false) ++ [])) s ∧ makers.length = 2 ∧
      Ended s 0 (.ok ()) ∧ s.disk q = some data ∧ data ≠ [] ∧
      Leads s t ∧ Ended t 1 (.ok ()) ∧ t.disk q = some other ∧ other ≠ data := by
  refine ⟨createHost, rivals, fun _ => none, rivalsFirst, rivalsBoth, s%"/w/other/y/c.proto", rivalText s%"one",
    rivalText s%"two", fun _ _ => rfl, ?_, reaches_schedule _ _, rfl, ?_, ?_, by decide +kernel,
    reaches_schedule _ _, ?_, ?_, by decide +kernel⟩
  · exact ⟨[s%"w"], by intro c hc; simp at hc; subst hc; refine ⟨?_, ?_, ?_, ?_⟩ <;> decide, rfl⟩
  · exact ⟨_, rfl, rfl⟩
  · decide +kernel
  · exact ⟨_, rfl, rfl⟩
  · decide +kernel

/-! ## The theorems are about something -/

section Example

open Exec.Sample

/-- A `create`, a `config init`, and one that is refused, all at once. -/
def makersDisk : Disk := fun p => if p = s%"/w/idl/codegen/old.proto" then some s%"x" else none

def makersTaken : System := schedule [0, 1, 2, 0, 1, 1, 0, 2, 2, 2]
  (start makersDisk ([Maker.create createHandler [s%"other/y/c.proto"],
    .init Exec.Sample.tools [s%"/w"] false false,
    .create createHandler [s%"idl/codegen/old.proto", s%"idl/codegen/new.proto"]].map (·.steps createHost false) ++ []))

example : Ended makersTaken 0 (.ok ()) ∧ Ended makersTaken 1 (.ok ()) ∧
    Ended makersTaken 2 (.error (.other s%"\"idl/codegen/old.proto\" already exists")) :=
  ⟨⟨_, rfl, rfl⟩, ⟨_, rfl, rfl⟩, ⟨_, rfl, rfl⟩⟩

example : makersTaken.disk s%"/w/prototool.yaml" = some s%"protoc:\n" ∧
    makersTaken.disk s%"/w/idl/codegen/old.proto" = some s%"x" ∧ makersTaken.disk s%"/w/idl/codegen/new.proto" = none := by
  decide +kernel

/-- In between, a file is empty. -/
example : (schedule [0, 0] (start makersDisk
    [(Maker.create createHandler [s%"other/y/c.proto"]).steps createHost false])).disk s%"/w/other/y/c.proto" =
      some [] := by decide +kernel

end Example

end Verif.Props
