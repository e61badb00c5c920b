import Verif.Proof.ReadFix
import Verif.Proof.ReadTwice
import Verif.Spec.Described

/-!
# Helper lemmas: the descriptor of a file does not depend on comments and on the order of options
-/

namespace Verif.Spec

open Verif Str Proto Format Descriptor

variable {β : Type}

/-! ## One declaration after the other -/

theorem flatMap_bare {f : Element → List β} (hc : ∀ c, f (.comment c) = []) :
    ∀ {es : List Element}, (∀ e ∈ es, f (bare e) = f e) → (bareAll es).flatMap f = es.flatMap f := by
  intro es
  induction es with
  | nil => intro _; unfold bareAll; rfl
  | cons e es ih =>
    intro h
    have ih := ih fun x hx => h x (List.mem_cons_of_mem _ hx)
    by_cases hce : isComment e = true
    · cases e <;> first | (unfold isComment at hce; cases hce; done) | skip
      unfold bareAll
      rw [List.flatMap_cons, hc, List.nil_append]
      exact ih
    · rw [bareAll_cons (by simpa using hce), List.flatMap_cons, List.flatMap_cons, ih, h e List.mem_cons_self]

theorem flatMap_tidy {f : Element → List β} {sort : List Opt → List Opt} {es : List Element}
    (h : ∀ e ∈ es, f (tidy sort e) = f e) : (tidyAll sort es).flatMap f = es.flatMap f := by
  induction es with
  | nil => unfold tidyAll; rfl
  | cons e es ih =>
    unfold tidyAll
    rw [List.flatMap_cons, List.flatMap_cons, h e List.mem_cons_self, ih fun x hx => h x (List.mem_cons_of_mem _ hx)]

theorem flatMap_staysPut {f : Element → List β} (h : ∀ e, staysPut e = false → f e = []) (es : List Element) :
    (es.filter staysPut).flatMap f = es.flatMap f := by
  induction es with
  | nil => rfl
  | cons e es ih =>
    rw [List.filter_cons, List.flatMap_cons]
    split
    · rw [List.flatMap_cons, ih]
    · rename_i hn
      rw [h e (by simpa using hn), List.nil_append, ih]

/-! ## Without comments -/

variable {P : Protoc} {names : List (Str × Int)}

theorem oneofDescs_bare (e : Element) : oneofDescs (bare e) = oneofDescs e := by cases e <;> (unfold bare; rfl)

theorem valueDescs_bare (e : Element) : valueDescs (bare e) = valueDescs e := by cases e <;> (unfold bare; rfl)

theorem enumDescs_bare (e : Element) : enumDescs (bare e) = enumDescs e := by
  cases e <;> first
    | (unfold bare; rfl)
    | (unfold bare enumDescs; dsimp only; rw [flatMap_bare (fun _ => rfl) fun e _ => valueDescs_bare e])

theorem methodDescs_bare (scope : List Str) (e : Element) :
    methodDescs P names scope (bare e) = methodDescs P names scope e := by cases e <;> (unfold bare; rfl)

theorem serviceDescs_bare (scope : List Str) (e : Element) :
    serviceDescs P names scope (bare e) = serviceDescs P names scope e := by
  cases e <;> first
    | (unfold bare; rfl)
    | (unfold bare serviceDescs; dsimp only; rw [flatMap_bare (fun _ => rfl) fun e _ => methodDescs_bare _ e])

theorem oneofFields_bare (scope : List Str) (i : Nat) (e : Element) :
    oneofFields P names scope i (bare e) = oneofFields P names scope i e := by cases e <;> (unfold bare; rfl)

theorem fieldDescs_bare (scope : List Str) : ∀ (i : Nat) (es : List Element),
    fieldDescs P names scope i (bareAll es) = fieldDescs P names scope i es
  | _, [] => by unfold bareAll; rfl
  | i, e :: es => by
    cases e <;> (unfold bareAll; first | rw [bare] | skip)
    case oneof o os =>
      simp only [fieldDescs]
      rw [flatMap_bare (fun _ => rfl) fun e _ => oneofFields_bare _ _ e, fieldDescs_bare]
    all_goals first
      | (simp only [fieldDescs]; rw [fieldDescs_bare]; done)
      | (simp only [fieldDescs]; rw [fieldDescs_bare]; rfl)

theorem messagesDescs_eq (scope : List Str) (es : List Element) :
    messagesDescs P names scope es = es.flatMap (messageDescs P names scope) := by
  induction es with
  | nil => unfold messagesDescs; rfl
  | cons e es ih => unfold messagesDescs; rw [List.flatMap_cons, ih]

theorem namesAll_eq (scope : List Str) (es : List Element) : namesAll scope es = es.flatMap (namesIn scope) := by
  induction es with
  | nil => unfold namesAll; rfl
  | cons e es ih => unfold namesAll; rw [List.flatMap_cons, ih]

mutual

theorem messageDescs_bare (scope : List Str) (e : Element) :
    messageDescs P names scope (bare e) = messageDescs P names scope e := by
  match e with
  | .message m es =>
    unfold bare messageDescs
    dsimp only
    rw [messagesDescs_bare, fieldDescs_bare, flatMap_bare (fun _ => rfl) fun e _ => enumDescs_bare e,
      flatMap_bare (fun _ => rfl) fun e _ => oneofDescs_bare e]
  | .group m es =>
    unfold bare messageDescs
    dsimp only
    rw [messagesDescs_bare, fieldDescs_bare, flatMap_bare (fun _ => rfl) fun e _ => enumDescs_bare e,
      flatMap_bare (fun _ => rfl) fun e _ => oneofDescs_bare e]
  | .oneof o es =>
    unfold bare messageDescs
    exact messagesDescs_bare scope es
  | .mapField f => unfold bare messageDescs; rfl
  | .comment _ | .syntax _ | .package _ | .option _ | .import _ | .enum _ _ | .enumField _ _ | .service _ _
  | .rpc _ _ | .normalField _ | .oneofField _ | .reserved _ | .extensions _ => unfold bare messageDescs; rfl

theorem messagesDescs_bare (scope : List Str) (es : List Element) :
    messagesDescs P names scope (bareAll es) = messagesDescs P names scope es := by
  match es with
  | [] => unfold bareAll; rfl
  | e :: es =>
    have h1 := messageDescs_bare scope e
    have h2 := messagesDescs_bare scope es
    by_cases hce : isComment e = true
    · cases e <;> first | (unfold isComment at hce; cases hce; done) | skip
      rw [bareAll, h2, messagesDescs]
      unfold messageDescs
      rfl
    · rw [bareAll_cons (by simpa using hce), messagesDescs, h1, h2, messagesDescs]

end

mutual

theorem namesIn_bare (scope : List Str) (e : Element) : namesIn scope (bare e) = namesIn scope e := by
  match e with
  | .message m es => unfold bare namesIn; dsimp only; rw [namesAll_bare]
  | .group m es => unfold bare namesIn; dsimp only; rw [namesAll_bare]
  | .oneof o es => unfold bare namesIn; exact namesAll_bare scope es
  | .comment _ | .syntax _ | .package _ | .option _ | .import _ | .enum _ _ | .enumField _ _ | .service _ _
  | .rpc _ _ | .normalField _ | .mapField _ | .oneofField _ | .reserved _ | .extensions _ =>
    unfold bare namesIn; rfl

theorem namesAll_bare (scope : List Str) (es : List Element) : namesAll scope (bareAll es) = namesAll scope es := by
  match es with
  | [] => unfold bareAll; rfl
  | e :: es =>
    have h1 := namesIn_bare scope e
    have h2 := namesAll_bare scope es
    by_cases hce : isComment e = true
    · cases e <;> first | (unfold isComment at hce; cases hce; done) | skip
      rw [bareAll, h2, namesAll]
      unfold namesIn
      rfl
    · rw [bareAll_cons (by simpa using hce), namesAll, h1, h2, namesAll]

end

/-! ## With the options in order -/

variable {sort : List Opt → List Opt}

theorem oneofDescs_tidy (e : Element) : oneofDescs (tidy sort e) = oneofDescs e := by cases e <;> (unfold tidy; rfl)

theorem valueDescs_tidy (e : Element) : valueDescs (tidy sort e) = valueDescs e := by cases e <;> (unfold tidy; rfl)

theorem enumDescs_tidy (e : Element) : enumDescs (tidy sort e) = enumDescs e := by
  cases e <;> first
    | (unfold tidy; rfl)
    | (unfold tidy enumDescs; dsimp only; rw [flatMap_tidy fun e _ => valueDescs_tidy e])

theorem methodDescs_tidy (scope : List Str) (e : Element) :
    methodDescs P names scope (tidy sort e) = methodDescs P names scope e := by cases e <;> (unfold tidy; rfl)

theorem serviceDescs_tidy (scope : List Str) (e : Element) :
    serviceDescs P names scope (tidy sort e) = serviceDescs P names scope e := by
  cases e <;> first
    | (unfold tidy; rfl)
    | (unfold tidy serviceDescs; dsimp only; rw [flatMap_tidy fun e _ => methodDescs_tidy _ e])

theorem oneofFields_tidy (scope : List Str) (i : Nat) (e : Element) :
    oneofFields P names scope i (tidy sort e) = oneofFields P names scope i e := by cases e <;> (unfold tidy; rfl)

theorem fieldDescs_tidy (scope : List Str) : ∀ (i : Nat) (es : List Element),
    fieldDescs P names scope i (tidyAll sort es) = fieldDescs P names scope i es
  | _, [] => by unfold tidyAll; rfl
  | i, e :: es => by
    cases e <;> (unfold tidyAll; rw [tidy])
    case oneof o os =>
      simp only [fieldDescs]
      rw [flatMap_tidy fun e _ => oneofFields_tidy _ _ e, fieldDescs_tidy]
    all_goals first
      | (simp only [fieldDescs]; rw [fieldDescs_tidy]; done)
      | (simp only [fieldDescs]; rw [fieldDescs_tidy]; rfl)

mutual

theorem messageDescs_tidy (scope : List Str) (e : Element) :
    messageDescs P names scope (tidy sort e) = messageDescs P names scope e := by
  match e with
  | .message m es =>
    unfold tidy messageDescs
    rw [messagesDescs_tidy, fieldDescs_tidy, flatMap_tidy fun e _ => enumDescs_tidy e,
      flatMap_tidy fun e _ => oneofDescs_tidy e]
  | .group m es =>
    unfold tidy messageDescs
    rw [messagesDescs_tidy, fieldDescs_tidy, flatMap_tidy fun e _ => enumDescs_tidy e,
      flatMap_tidy fun e _ => oneofDescs_tidy e]
  | .oneof o es =>
    unfold tidy messageDescs
    exact messagesDescs_tidy scope es
  | .mapField f => unfold tidy messageDescs; rfl
  | .comment _ | .syntax _ | .package _ | .option _ | .import _ | .enum _ _ | .enumField _ _ | .service _ _
  | .rpc _ _ | .normalField _ | .oneofField _ | .reserved _ | .extensions _ => unfold tidy messageDescs; rfl

theorem messagesDescs_tidy (scope : List Str) (es : List Element) :
    messagesDescs P names scope (tidyAll sort es) = messagesDescs P names scope es := by
  match es with
  | [] => unfold tidyAll; rfl
  | e :: es => rw [tidyAll, messagesDescs, messageDescs_tidy scope e, messagesDescs_tidy scope es, messagesDescs]

end

mutual

theorem namesIn_tidy (scope : List Str) (e : Element) : namesIn scope (tidy sort e) = namesIn scope e := by
  match e with
  | .message m es => unfold tidy namesIn; rw [namesAll_tidy]
  | .group m es => unfold tidy namesIn; rw [namesAll_tidy]
  | .oneof o es => unfold tidy namesIn; exact namesAll_tidy scope es
  | .comment _ | .syntax _ | .package _ | .option _ | .import _ | .enum _ _ | .enumField _ _ | .service _ _
  | .rpc _ _ | .normalField _ | .mapField _ | .oneofField _ | .reserved _ | .extensions _ =>
    unfold tidy namesIn; rfl

theorem namesAll_tidy (scope : List Str) (es : List Element) :
    namesAll scope (tidyAll sort es) = namesAll scope es := by
  match es with
  | [] => unfold tidyAll; rfl
  | e :: es => rw [tidyAll, namesAll, namesIn_tidy scope e, namesAll_tidy scope es, namesAll]

end

/-! ## Files with the same declarations -/

/-- The descriptor depends on the package, on the imports, and on the other declarations without
comments and with the options in any order. -/
theorem same_of_parts {es es' : List Element} (name : Str)
    (hp : (packagesAmong es').map (·.name) = (packagesAmong es).map (·.name))
    (hi : ((importsAmong es').map (·.filename)).Perm ((importsAmong es).map (·.filename)))
    (hs : bareAll (es'.filter staysPut) = bareAll (tidyAll sort (es.filter staysPut))) :
    SameFile (describe P names name es) (describe P names name es') ∧
      namesAll (topScope es') es' = namesAll (topScope es) es := by
  have hpk : packageOf es' = packageOf es := by unfold packageOf; rw [hp]
  have hts : topScope es' = topScope es := by unfold topScope; rw [hpk]
  have key : ∀ {β : Type} (f : Element → List β), (∀ e, staysPut e = false → f e = []) → (∀ c, f (.comment c) = []) →
      (∀ e, f (bare e) = f e) → (∀ e, f (tidy sort e) = f e) → es'.flatMap f = es.flatMap f := by
    intro β f h1 h2 h3 h4
    rw [← flatMap_staysPut h1 es', ← flatMap_bare h2 (fun e _ => h3 e) (es := es'.filter staysPut), hs,
      flatMap_bare h2 (fun e _ => h3 e), flatMap_tidy fun e _ => h4 e, flatMap_staysPut h1 es]
  refine ⟨⟨rfl, hpk, hi, ?_, ?_, ?_⟩, ?_⟩
  · show messagesDescs P names (topScope es') es' = messagesDescs P names (topScope es) es
    rw [hts, messagesDescs_eq, messagesDescs_eq]
    refine key _ ?_ ?_ (messageDescs_bare _) (messageDescs_tidy _)
    · intro e he
      cases e <;> first | (unfold staysPut at he; cases he; done) | (unfold messageDescs; rfl)
    · intro c; unfold messageDescs; rfl
  · refine key _ ?_ (fun _ => rfl) enumDescs_bare enumDescs_tidy
    intro e he
    cases e <;> first | (unfold staysPut at he; cases he; done) | rfl
  · show es'.flatMap (serviceDescs P names (topScope es')) = _
    rw [hts]
    refine key _ ?_ (fun _ => rfl) (serviceDescs_bare _) (serviceDescs_tidy _)
    intro e he
    cases e <;> first | (unfold staysPut at he; cases he; done) | rfl
  · rw [hts, namesAll_eq, namesAll_eq]
    refine key _ ?_ ?_ (namesIn_bare _) (namesIn_tidy _)
    · intro e he
      cases e <;> first | (unfold staysPut at he; cases he; done) | (unfold namesIn; rfl)
    · intro c; unfold namesIn; rfl

/-! ## Descriptors that are the same -/

theorem SameFile.refl (f : FileDesc) : SameFile f f := ⟨rfl, rfl, .refl _, rfl, rfl, rfl⟩

theorem flatMap_same {files files' : List FileDesc} (proj : FileDesc → List β) (hn : files.Nodup) (hn' : files'.Nodup)
    (ho : ∀ f ∈ files, ∀ g ∈ files, f.name = g.name → f = g)
    (ho' : ∀ f ∈ files', ∀ g ∈ files', f.name = g.name → f = g)
    (h : ∀ f ∈ files, ∃ f' ∈ files', f'.name = f.name ∧ proj f' = proj f)
    (h' : ∀ f' ∈ files', ∃ f ∈ files, f'.name = f.name ∧ proj f' = proj f) :
    (files.flatMap proj).Perm (files'.flatMap proj) := by
  have nodup : ∀ {l : List FileDesc}, l.Nodup → (∀ f ∈ l, ∀ g ∈ l, f.name = g.name → f = g) →
      (l.map fun f => (f.name, proj f)).Nodup := by
    intro l hl hl'
    rw [List.nodup_iff_pairwise_ne, List.pairwise_map]
    refine List.Pairwise.imp_of_mem ?_ (List.nodup_iff_pairwise_ne.1 hl)
    intro a b ha hb hab e
    exact hab (hl' a ha b hb (congrArg Prod.fst e))
  have hp : (files.map fun f => (f.name, proj f)).Perm (files'.map fun f => (f.name, proj f)) := by
    refine (List.perm_ext_iff_of_nodup (nodup hn ho) (nodup hn' ho')).2 fun x => ?_
    constructor
    · intro hx
      obtain ⟨f, hf, rfl⟩ := List.mem_map.1 hx
      obtain ⟨f', hf', h1, h2⟩ := h f hf
      exact List.mem_map.2 ⟨f', hf', by rw [h1, h2]⟩
    · intro hx
      obtain ⟨f', hf', rfl⟩ := List.mem_map.1 hx
      obtain ⟨f, hf, h1, h2⟩ := h' f' hf'
      exact List.mem_map.2 ⟨f, hf, by rw [h1, h2]⟩
  have := hp.flatMap_right (f := fun x => x.2)
  simpa only [List.flatMap_map] using this

/-- The same descriptors up to the order of the imports have the same definitions and imports. -/
theorem redistributed_of_same {all all' : List FileDesc}
    (ho : ∀ f ∈ all, ∀ g ∈ all, f.name = g.name → f = g) (ho' : ∀ f ∈ all', ∀ g ∈ all', f.name = g.name → f = g)
    (h : ∀ f ∈ all, ∃ f' ∈ all', SameFile f f') (h' : ∀ f' ∈ all', ∃ f ∈ all, SameFile f f') :
    Redistributed all all' := by
  have perm : ∀ {β : Type} (proj : FileDesc → List β), (∀ f f', SameFile f f' → proj f' = proj f) →
      ∀ k files files', FilesOf all k files → FilesOf all' k files' →
        (files.flatMap proj).Perm (files'.flatMap proj) := by
    intro β proj hproj k files files' hf hf'
    refine flatMap_same proj hf.1 hf'.1 (fun f h1 g h2 => ho f ((hf.2 f).1 h1).1 g ((hf.2 g).1 h2).1)
      (fun f h1 g h2 => ho' f ((hf'.2 f).1 h1).1 g ((hf'.2 g).1 h2).1) ?_ ?_
    · intro f h1
      obtain ⟨h2, h3⟩ := (hf.2 f).1 h1
      obtain ⟨f', h4, h5⟩ := h f h2
      exact ⟨f', (hf'.2 f').2 ⟨h4, h5.package.trans h3⟩, h5.name, hproj _ _ h5⟩
    · intro f' h1
      obtain ⟨h2, h3⟩ := (hf'.2 f').1 h1
      obtain ⟨f, h4, h5⟩ := h' f' h2
      exact ⟨f, (hf.2 f).2 ⟨h4, h5.package.symm.trans h3⟩, h5.name, hproj _ _ h5⟩
  refine ⟨?_, ?_, ?_, ?_, ?_⟩
  · intro k
    constructor
    · rintro ⟨f, hf, rfl⟩
      obtain ⟨f', h1, h2⟩ := h f hf
      exact ⟨f', h1, h2.package⟩
    · rintro ⟨f', hf, rfl⟩
      obtain ⟨f, h1, h2⟩ := h' f' hf
      exact ⟨f, h1, h2.package.symm⟩
  · intro k q _
    constructor
    · rintro ⟨f, hf, rfl, d, hd, g, hg, rfl, rfl⟩
      obtain ⟨f', h1, h2⟩ := h f hf
      obtain ⟨g', h3, h4⟩ := h g hg
      exact ⟨f', h1, h2.package, g.name, h2.dependency.mem_iff.2 hd, g', h3, h4.name, h4.package⟩
    · rintro ⟨f', hf, rfl, d, hd, g', hg, rfl, rfl⟩
      obtain ⟨f, h1, h2⟩ := h' f' hf
      obtain ⟨g, h3, h4⟩ := h' g' hg
      exact ⟨f, h1, h2.package.symm, g'.name, h2.dependency.mem_iff.1 hd, g, h3, h4.name.symm, h4.package.symm⟩
  · exact fun k files files' hf hf' => .perm (perm _ (fun _ _ s => s.enums) k files files' hf hf')
  · exact fun k files files' hf hf' => .perm (perm _ (fun _ _ s => s.messages) k files files' hf hf')
  · exact fun k files files' hf hf' => .perm (perm _ (fun _ _ s => s.services) k files files' hf hf')

/-- Names tell the described files apart. -/
theorem Described.one_copy {P : Protoc} {h : Exec.Host} {files : List (Str × Str)} {disk : Exec.Disk}
    {all : List FileDesc} (hall : Described P h files disk all) (hnd : (files.map Prod.fst).Nodup) :
    ∀ f ∈ all, ∀ g ∈ all, f.name = g.name → f = g := by
  obtain ⟨es, h1, h2⟩ := hall
  intro f hf g hg hn
  obtain ⟨x, hx, rfl⟩ := (h2 f).1 hf
  obtain ⟨y, hy, rfl⟩ := (h2 g).1 hg
  have hxy : x = y := by
    clear hf hg h1 h2
    replace hn : x.1 = y.1 := hn
    induction files with
    | nil => cases hx
    | cons z zs ih =>
      rw [List.map_cons, List.nodup_cons] at hnd
      rcases List.mem_cons.1 hx with ex | hx' <;> rcases List.mem_cons.1 hy with ey | hy'
      · rw [ex, ey]
      · exact absurd (ex ▸ hn ▸ List.mem_map_of_mem hy') hnd.1
      · exact absurd (ey ▸ hn ▸ List.mem_map_of_mem hx') hnd.1
      · exact ih hnd.2 hx' hy'
  rw [hxy]

/-- What protoc ensures of the files it ensures of files that are the same. -/
theorem DescriptorsOK.of_same {all all' : List FileDesc} (hv : DescriptorsOK all)
    (hone : ∀ f ∈ all', ∀ g ∈ all', f.name = g.name → f = g) (hl : ∀ f ∈ all, ∃ f' ∈ all', SameFile f f')
    (hr : ∀ f' ∈ all', ∃ f ∈ all, SameFile f f') : DescriptorsOK all' := by
  have imp : ∀ f' ∈ all', ∀ g' ∈ all', (∀ f ∈ all, ∀ g ∈ all, SameFile f f' → SameFile g g' → f = g) → f' = g' := by
    intro f' hf' g' hg' h
    obtain ⟨f, hf, sf⟩ := hr f' hf'
    obtain ⟨g, hg, sg⟩ := hr g' hg'
    have := h f hf g hg sf sg
    subst this
    exact hone f' hf' g' hg' (sf.name.trans sg.name.symm)
  refine ⟨⟨?_, hone, ?_, ?_, ?_⟩, ⟨?_, ?_, ?_, ?_, ?_, ?_⟩, ?_, ?_⟩
  · intro f' hf'
    obtain ⟨f, hf, s⟩ := hr f' hf'
    rw [s.package]
    exact hv.reflectable.packages f hf
  · intro f' hf' d hd
    obtain ⟨f, hf, s⟩ := hr f' hf'
    obtain ⟨g, hg, e⟩ := hv.reflectable.imports f hf d (s.dependency.mem_iff.1 hd)
    obtain ⟨g', hg', s'⟩ := hl g hg
    exact ⟨g', hg', s'.name.trans e⟩
  · intro f' hf'
    obtain ⟨f, hf, s⟩ := hr f' hf'
    rw [s.messages]
    exact hv.reflectable.messages f hf
  · intro f' hf'
    obtain ⟨f, hf, s⟩ := hr f' hf'
    rw [s.services]
    exact hv.reflectable.methods f hf
  · intro f' hf'
    obtain ⟨f, hf, s⟩ := hr f' hf'
    rw [s.enums]
    exact hv.names.enums f hf
  · intro f' hf'
    obtain ⟨f, hf, s⟩ := hr f' hf'
    rw [s.messages]
    exact hv.names.messages f hf
  · intro f' hf'
    obtain ⟨f, hf, s⟩ := hr f' hf'
    rw [s.services]
    exact hv.names.services f hf
  · intro f' hf' g' hg' hp a ha b hb hab
    refine imp f' hf' g' hg' fun f hf g hg sf sg => ?_
    exact hv.names.across_enums f hf g hg (by rw [← sf.package, ← sg.package, hp]) a (sf.enums ▸ ha) b (sg.enums ▸ hb) hab
  · intro f' hf' g' hg' hp a ha b hb hab
    refine imp f' hf' g' hg' fun f hf g hg sf sg => ?_
    exact hv.names.across_messages f hf g hg (by rw [← sf.package, ← sg.package, hp]) a (sf.messages ▸ ha) b
      (sg.messages ▸ hb) hab
  · intro f' hf' g' hg' hp a ha b hb hab
    refine imp f' hf' g' hg' fun f hf g hg sf sg => ?_
    exact hv.names.across_services f hf g hg (by rw [← sf.package, ← sg.package, hp]) a (sf.services ▸ ha) b
      (sg.services ▸ hb) hab
  · intro f' hf'
    obtain ⟨f, hf, s⟩ := hr f' hf'
    rw [s.messages]
    exact hv.messages f hf
  · intro f' hf'
    obtain ⟨f, hf, s⟩ := hr f' hf'
    rw [s.services]
    exact hv.methods f hf

end Verif.Spec
