import Verif.Spec.LintRun
import Verif.Spec.RequestTypes
import Verif.Proof.Endings
import Verif.Proof.LastBy

/-! # Every failure of a file is said to be in this file -/

namespace Verif.Lint

open Verif Proto Spec

/-- On parsed files the rule runs, and what it reports is in the files. -/
def Lands (ok : FileDescriptor → Prop) (l : Linter) : Prop :=
  ∃ places, ReportsOn ok l places ∧ ∀ d, ok d → ∀ p ∈ places d, p.filename = d.filename

theorem Lands.on {good ok : FileDescriptor → Prop} {l : Linter} {places : FileDescriptor → List Position}
    (h : ReportsOn good l places) (hg : ∀ d, ok d → good d)
    (hp : ∀ d, ok d → ∀ p ∈ places d, p.filename = d.filename) : Lands ok l :=
  ⟨places, fun dirPath ds hds => h dirPath ds fun d hd => hg d (hds d hd), hp⟩

theorem placed_pick {α : Type} {d : FileDescriptor} {kind : Element → Bool} {pick : Node → Option α}
    {pos : α → Position} (hd : Parsed d) (hp : ∀ n a, pick n = some a → pos a = positionOf n.self) :
    ∀ a ∈ (inside kind d).filterMap pick, (pos a).filename = d.filename := by
  intro a ha
  obtain ⟨n, hn, h⟩ := List.mem_filterMap.1 ha
  rw [hp n a h]
  exact (hd.placed n (List.mem_filter.1 hn).1).1

variable {d : FileDescriptor}

theorem placed_messages (hd : Parsed d) : ∀ x ∈ messages d, x.position.filename = d.filename :=
  placed_pick hd fun n a h => by unfold asMessage at h; split at h <;> cases h; rfl

theorem placed_enums (hd : Parsed d) : ∀ x ∈ enums d, x.position.filename = d.filename :=
  placed_pick hd fun n a h => by unfold asEnum at h; split at h <;> cases h; rfl

theorem placed_enumValues (hd : Parsed d) : ∀ x ∈ enumValues d, x.position.filename = d.filename :=
  placed_pick hd fun n a h => by unfold asEnumValue at h; split at h <;> cases h; rfl

theorem placed_namedValues (hd : Parsed d) : ∀ x ∈ namedValues d, x.2.position.filename = d.filename :=
  placed_pick (pos := fun x : List Str × EnumField => x.2.position) hd fun n a h => by
    unfold asNamedValue asEnumValue at h; split at h <;> cases h; rfl

theorem placed_valuesOfEnums (hd : Parsed d) : ∀ x ∈ valuesOfEnums d, x.2.position.filename = d.filename :=
  placed_pick (pos := fun x : Enum × EnumField => x.2.position) hd fun n a h => by
    unfold asValueOfEnum at h; split at h <;> cases h; rfl

theorem placed_enumOptions (hd : Parsed d) : ∀ x ∈ enumOptions d, x.position.filename = d.filename :=
  placed_pick hd fun n a h => by unfold asEnumOption at h; split at h <;> cases h; rfl

theorem placed_reservedDecls (hd : Parsed d) : ∀ x ∈ reservedDecls d, x.position.filename = d.filename :=
  placed_pick hd fun n a h => by unfold asReserved at h; split at h <;> cases h; rfl

theorem placed_fields (hd : Parsed d) : ∀ x ∈ fields d, x.position.filename = d.filename :=
  placed_pick hd fun n a h => by unfold asField at h; split at h <;> cases h <;> rfl

theorem placed_nonMapFields (hd : Parsed d) : ∀ x ∈ nonMapFields d, x.position.filename = d.filename :=
  placed_pick hd fun n a h => by unfold asNonMapField at h; split at h <;> cases h <;> rfl

theorem placed_oneofs (hd : Parsed d) : ∀ x ∈ oneofs d, x.position.filename = d.filename :=
  placed_pick hd fun n a h => by unfold asOneof at h; split at h <;> cases h; rfl

theorem placed_services (hd : Parsed d) : ∀ x ∈ services d, x.position.filename = d.filename :=
  placed_pick hd fun n a h => by unfold asService at h; split at h <;> cases h; rfl

theorem placed_rpcs (hd : Parsed d) : ∀ x ∈ rpcs d, x.position.filename = d.filename :=
  placed_pick hd fun n a h => by unfold asRPC at h; split at h <;> cases h; rfl

theorem placed_imports (hd : Parsed d) : ∀ x ∈ imports d, x.position.filename = d.filename :=
  placed_pick hd fun n a h => by unfold asImport at h; split at h <;> cases h; rfl

theorem placed_packages (hd : Parsed d) : ∀ x ∈ packages d, x.position.filename = d.filename :=
  placed_pick hd fun n a h => by unfold asPackage at h; split at h <;> cases h; rfl

theorem placed_syntaxes (hd : Parsed d) : ∀ x ∈ syntaxes d, x.position.filename = d.filename :=
  placed_pick hd fun n a h => by unfold asSyntax at h; split at h <;> cases h; rfl

theorem placed_fileOptions (hd : Parsed d) : ∀ x ∈ fileOptions d, x.position.filename = d.filename :=
  placed_pick hd fun n a h => by unfold asOption at h; split at h <;> cases h; rfl

theorem placed_rpcOptions (hd : Parsed d) : ∀ x ∈ rpcOptions d, x.2.position.filename = d.filename :=
  placed_pick (pos := fun x : RPC × Opt => x.2.position) hd fun n a h => by
    unfold asRPCOption at h; split at h <;> cases h; rfl

theorem placed_topMessages (hd : Parsed d) : ∀ x ∈ topMessages d, x.position.filename = d.filename :=
  placed_pick hd fun n a h => by unfold asMessage at h; split at h <;> cases h; rfl

theorem placed_topEnums (hd : Parsed d) : ∀ x ∈ topEnums d, x.position.filename = d.filename :=
  placed_pick hd fun n a h => by unfold asEnum at h; split at h <;> cases h; rfl

theorem placed_named (hd : Parsed d) :
    ∀ x ∈ namedMessages d, x.message.position.filename = d.filename := by
  intro x hx
  obtain ⟨n, hn, h⟩ := List.mem_filterMap.1 hx
  have hn' := (endingAll_perm d.elements []).mem_iff.1 (List.mem_filter.1 hn).1
  have : x.message.position = positionOf n.self := by
    unfold asNamedMessage at h; split at h <;> cases h; rfl
  rw [this]
  exact (hd.placed n hn').1

theorem placed_last {α : Type} {key : α → Str} {xs : List α} {pos : α → Position}
    (h : ∀ x ∈ xs, (pos x).filename = d.filename) :
    ∀ x ∈ lastBy key xs, (pos x).filename = d.filename := fun x hx => h x (lastBy_mem hx)

theorem placed_repeats {before : List Str} {us : List (Position × Str)}
    (h : ∀ u ∈ us, u.1.filename = d.filename) : ∀ p ∈ repeats before us, p.filename = d.filename := by
  induction us generalizing before with
  | nil => exact fun _ h => nomatch h
  | cons u us ih =>
    intro p hp
    obtain ⟨q, t⟩ := u
    rw [repeats, List.mem_append] at hp
    rcases hp with hp | hp
    · split at hp
      · rw [List.mem_singleton] at hp
        rw [hp]; exact h _ List.mem_cons_self
      · cases hp
    · exact ih (fun u hu => h u (List.mem_cons_of_mem _ hu)) p hp

theorem placed_after (hd : Parsed d) (r : RPC) : ∀ p ∈ afterPlaces d r, p.filename = d.filename := by
  have hl : ∀ name m, lastNamed d name = some m → m.position.filename = d.filename := fun name m h =>
    placed_topMessages hd m (List.mem_filter.1 (List.mem_of_getLast? h)).1
  intro p hp
  unfold afterPlaces at hp
  cases h1 : lastNamed d r.requestType <;> cases h2 : lastNamed d r.returnsType <;>
    rw [h1, h2] at hp <;> dsimp only at hp <;>
    simp only [List.nil_append, List.append_nil, List.mem_append, List.not_mem_nil] at hp <;>
    grind

/-! ## Shapes of places -/

theorem within_filter {α : Type} {xs : List α} {pos : α → Position} {bad : α → Bool}
    (h : ∀ x ∈ xs, (pos x).filename = d.filename) :
    ∀ p ∈ (xs.filter bad).map pos, p.filename = d.filename := by
  intro p hp
  obtain ⟨x, hx, rfl⟩ := List.mem_map.1 hp
  exact h x (List.mem_filter.1 hx).1

theorem within_map {α : Type} {xs : List α} {pos : α → Position}
    (h : ∀ x ∈ xs, (pos x).filename = d.filename) :
    ∀ p ∈ xs.map pos, p.filename = d.filename := by
  intro p hp
  obtain ⟨x, hx, rfl⟩ := List.mem_map.1 hp
  exact h x hx

theorem within_flatMap {α : Type} {xs : List α} {f : α → List Position}
    (h : ∀ x ∈ xs, ∀ p ∈ f x, p.filename = d.filename) :
    ∀ p ∈ xs.flatMap f, p.filename = d.filename := by
  intro p hp
  obtain ⟨x, hx, hp⟩ := List.mem_flatMap.1 hp
  exact h x hx p hp

theorem within_append {xs ys : List Position} (hx : ∀ p ∈ xs, p.filename = d.filename)
    (hy : ∀ p ∈ ys, p.filename = d.filename) : ∀ p ∈ xs ++ ys, p.filename = d.filename :=
  fun p hp => (List.mem_append.1 hp).elim (hx p) (hy p)

theorem within_ite {c : Prop} [Decidable c] {xs ys : List Position}
    (hx : ∀ p ∈ xs, p.filename = d.filename) (hy : ∀ p ∈ ys, p.filename = d.filename) :
    ∀ p ∈ (if c then xs else ys), p.filename = d.filename := by
  split <;> assumption

theorem within_nil : ∀ p ∈ ([] : List Position), p.filename = d.filename := fun _ h => nomatch h

theorem within_one {q : Position} (h : q.filename = d.filename) :
    ∀ p ∈ [q], p.filename = d.filename := fun p hp => by rw [List.mem_singleton.1 hp]; exact h

end Verif.Lint
