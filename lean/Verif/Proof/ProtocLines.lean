import Verif.Spec.ProtocLines
import Verif.Proof.ProtocOutput
import Verif.Spec.List

/-! # The kinds of lines are those of the expressions -/

namespace Verif.Protoc

open Verif Str File Text Regexp Spec

/-- The text of a piece. -/
def TextOf : Piece → Str → Prop
  | .lit l, t => t = l
  | .any, t => ∃ c, t = [c]
  | .star, _ => True
  | .digits, t => Number t

/-- The texts of pieces. -/
def Texts : List Piece → List Str → Prop
  | [], [] => True
  | p :: ps, t :: ts => TextOf p t ∧ Texts ps ts
  | _, _ => False

theorem matchHere_texts {e : Bool} {ps : List Piece} {s : Str} {ts : List Str}
    (h : matchHere e ps s = some ts) :
    Texts ps ts ∧ ∃ rest, s = ts.flatten ++ rest ∧ (e = true → rest = []) := by
  induction ps generalizing s ts with
  | nil =>
    unfold matchHere at h
    split at h
    · cases h
    · rename_i hn
      cases h
      refine ⟨trivial, s, rfl, ?_⟩
      intro he
      rw [he] at hn
      simpa using hn
  | cons p ps ih =>
    cases p with
    | lit l =>
      unfold matchHere at h
      split at h
      · rename_i hp
        rw [Option.map_eq_some_iff] at h
        obtain ⟨ts', h1, rfl⟩ := h
        obtain ⟨h2, rest, h3, h4⟩ := ih h1
        obtain ⟨r, hr⟩ := List.isPrefixOf_iff_prefix.1 hp
        refine ⟨⟨rfl, h2⟩, rest, ?_, h4⟩
        rw [← hr, List.drop_left] at h3
        rw [← hr, h3]
        simp
      · cases h
    | any =>
      unfold matchHere at h
      cases s with
      | nil => cases h
      | cons c cs =>
        dsimp only at h
        split at h
        · rw [Option.map_eq_some_iff] at h
          obtain ⟨ts', h1, rfl⟩ := h
          obtain ⟨h2, rest, h3, h4⟩ := ih h1
          exact ⟨⟨⟨c, rfl⟩, h2⟩, rest, by rw [h3]; simp, h4⟩
        · cases h
    | star =>
      unfold matchHere at h
      obtain ⟨a, b, rfl, _, hk⟩ := greedy_some h
      rw [Option.map_eq_some_iff] at hk
      obtain ⟨ts', h1, rfl⟩ := hk
      obtain ⟨h2, rest, h3, h4⟩ := ih h1
      exact ⟨⟨trivial, h2⟩, rest, by rw [h3]; simp, h4⟩
    | digits =>
      unfold matchHere at h
      cases s with
      | nil => cases h
      | cons c cs =>
        dsimp only at h
        split at h
        · rename_i hc
          obtain ⟨a, b, rfl, ha, hk⟩ := greedy_some h
          rw [Option.map_eq_some_iff] at hk
          obtain ⟨ts', h1, rfl⟩ := hk
          obtain ⟨h2, rest, h3, h4⟩ := ih h1
          refine ⟨⟨⟨by simp, ?_⟩, h2⟩, rest, by rw [h3]; simp, h4⟩
          intro x hx
          simp only [List.cons_append, List.nil_append, List.mem_cons] at hx
          rcases hx with rfl | hx
          · exact hc
          · exact ha x hx
        · cases h

theorem matchAnywhere_here {e : Bool} {ps : List Piece} {s : Str} {ts : List Str}
    (h : matchAnywhere e ps s = some ts) : ∃ a b, s = a ++ b ∧ matchHere e ps b = some ts := by
  induction s with
  | nil => exact ⟨[], [], rfl, h⟩
  | cons c cs ih =>
    unfold matchAnywhere at h
    split at h
    · rename_i r hr
      cases h
      exact ⟨[], _, rfl, hr⟩
    · obtain ⟨a, b, rfl, hb⟩ := ih h
      exact ⟨c :: a, b, rfl, hb⟩

theorem find_texts {e : Exp} {s : Str} {g : Nat → Str} (h : e.find s = some g) :
    ∃ before ts rest, Texts (e.pieces.map (·.2)) ts ∧ s = before ++ (ts.flatten ++ rest) ∧
      (e.fromStart = true → before = []) ∧ (e.toEnd = true → rest = []) ∧ g = group e.pieces ts := by
  unfold Exp.find at h
  dsimp only at h
  rw [Option.map_eq_some_iff] at h
  obtain ⟨ts, h1, rfl⟩ := h
  cases hs : e.fromStart with
  | true =>
    rw [if_pos hs] at h1
    obtain ⟨h2, rest, h3, h4⟩ := matchHere_texts h1
    exact ⟨[], ts, rest, h2, h3, fun _ => rfl, h4, rfl⟩
  | false =>
    rw [if_neg (by simp [hs])] at h1
    obtain ⟨a, b, rfl, hb⟩ := matchAnywhere_here h1
    obtain ⟨h2, rest, h3, h4⟩ := matchHere_texts hb
    refine ⟨a, ts, rest, h2, ?_, fun x => (nomatch x), h4, rfl⟩
    rw [h3]

theorem texts_fit {e : Bool} {ps : List Piece} {ts : List Str} {rest : Str} (h : Texts ps ts)
    (hr : e = true → rest = []) : Fit0 e ps (ts.flatten ++ rest) := by
  induction ps generalizing ts with
  | nil =>
    cases ts with
    | nil => exact hr
    | cons t ts => cases h
  | cons p ps ih =>
    cases ts with
    | nil => cases p <;> cases h
    | cons t ts =>
      have := ih h.2
      have hp := h.1
      rw [List.flatten_cons, List.append_assoc]
      cases p with
      | lit l => exact ⟨_, by rw [show t = l from hp], this⟩
      | any =>
        obtain ⟨c, rfl⟩ := hp
        exact ⟨c, _, rfl, this⟩
      | star => exact ⟨t, _, rfl, this⟩
      | digits => exact ⟨t, _, rfl, hp, this⟩

/-- A line made of texts for the pieces matches. -/
theorem matches_texts {e : Exp} {before rest line : Str} (ts : List Str) (hn : '\n' ∉ line)
    (h : Texts (e.pieces.map (·.2)) ts) (hl : line = before ++ (ts.flatten ++ rest))
    (hb : e.fromStart = true → before = []) (hr : e.toEnd = true → rest = []) : e.Matches line := by
  cases hs : e.fromStart with
  | true =>
    rw [matches_start hn hs, hl, hb hs, List.nil_append]
    exact texts_fit h hr
  | false =>
    rw [matches_anywhere hn hs]
    exact ⟨before, _, hl, texts_fit h hr⟩

/-- The rule is about lines of the kind, and a failure it gives says what the line means. -/
def RuleFor (rule : Rule) (k : LineKind) : Prop :=
  ∀ (m : CmdMeta) (line : Str), '\n' ∉ line → (∀ f ∈ m.protoFiles, f.displayPath ≠ []) →
    (IsKind line k → rule.exp.Matches line) ∧
    ∀ g, rule.exp.find line = some g → ∀ f, rule.act m line g = some f →
      ∃ file place message, Reads k line file place message ∧
        f = failureAt m.protoFiles line file place message

theorem firstRule_reading {m : CmdMeta} {line : Str} (h : '\n' ∉ line)
    (hd : ∀ f ∈ m.protoFiles, f.displayPath ≠ []) {rules : List Rule} {kinds : List LineKind}
    (hp : Pointwise RuleFor rules kinds) {f : Failure} (hf : firstRule m line rules = some (some f)) :
    FirstReading m.protoFiles kinds line f := by
  induction hp with
  | nil => cases hf
  | cons hr hrest ih =>
    rename_i rule k rules kinds
    unfold firstRule at hf
    cases hg : rule.exp.find line with
    | some g =>
      rw [hg] at hf
      obtain ⟨file, place, message, h1, h2⟩ := (hr m line h hd).2 g hg f (by injection hf)
      exact ⟨[], k, kinds, file, place, message, rfl, by simp, h1, h2⟩
    | none =>
      rw [hg] at hf
      obtain ⟨before, j, after, file, place, message, rfl, h1, h2⟩ := ih hf
      refine ⟨k :: before, j, after, file, place, message, rfl, ?_, h2⟩
      intro i hi
      rcases List.mem_cons.1 hi with rfl | hi
      · exact fun hk => find_none.1 hg ((hr m line h hd).1 hk)
      · exact h1 i hi

theorem firstRule_no_kind {m : CmdMeta} {line : Str} (h : '\n' ∉ line)
    (hd : ∀ f ∈ m.protoFiles, f.displayPath ≠ []) {rules : List Rule} {kinds : List LineKind}
    (hp : Pointwise RuleFor rules kinds) (hf : firstRule m line rules = none) :
    ∀ k ∈ kinds, ¬ IsKind line k := by
  rw [firstRule_none] at hf
  induction hp with
  | nil => simp
  | cons hr hrest ih =>
    rename_i rule k rules kinds
    intro j hj
    rcases List.mem_cons.1 hj with rfl | hj
    · exact fun hk => hf rule (List.mem_cons_self ..) ((hr m line h hd).1 hk)
    · exact ih (fun r hr => hf r (List.mem_cons_of_mem _ hr)) j hj

theorem texts_nil {ts : List Str} : Texts [] ts ↔ ts = [] := by
  cases ts <;> simp [Texts]

theorem texts_cons {p : Piece} {ps : List Piece} {ts : List Str} :
    Texts (p :: ps) ts ↔ ∃ t r, ts = t :: r ∧ TextOf p t ∧ Texts ps r := by
  cases ts with
  | nil => simp [Texts]
  | cons t ts =>
    constructor
    · exact fun h => ⟨t, ts, rfl, h⟩
    · rintro ⟨t', r, e, h⟩
      cases e
      exact h

theorem failureAt_file {m : CmdMeta} (hd : ∀ f ∈ m.protoFiles, f.displayPath ≠ []) (line file message : Str) :
    failureAt m.protoFiles line (some file) none message = inFile (bestFilePath m file) message := by
  rw [bestFilePath_eq hd]
  rfl

theorem failureAt_located {m : CmdMeta} (hd : ∀ f ∈ m.protoFiles, f.displayPath ≠ [])
    (line file l c message : Str) :
    failureAt m.protoFiles line (some file) (some (l, c)) message = located m line file l c message := by
  unfold failureAt located
  rw [bestFilePath_eq hd]
  rfl

theorem unusedImport_some {m : CmdMeta} {f f' : Failure} (h : unusedImport m f = some f') : f' = f := by
  unfold unusedImport at h
  split at h
  · cases h
  · injection h with h; exact h.symm


theorem reads_cast {k : LineKind} {line line' : Str} {file : Option Str} {place : Option (Str × Str)}
    {message : Str} (e : line = line') (h : Reads k line file place message) :
    Reads k line' file place message := e ▸ h

theorem pluginRules_kinds : Pointwise RuleFor pluginRules pluginKinds := by
  unfold pluginRules pluginKinds
  refine .cons ?_ (.cons ?_ (.cons ?_ (.nil)))
  · intro m line hn hd
    refine ⟨?_, ?_⟩
    · rintro ⟨_, _, _, h⟩
      cases h with
      | pluginStatus a plugin status x =>
        refine matches_texts (before := []) (rest := []) [s%"--", a, s%"_out: protoc-gen-", plugin, s%": Plugin failed with status code ", status, [x]] hn ?_ ?_ ?_ ?_
        · simp [pluginFailedRegexp, Texts, TextOf]
        · simp
        · simp [pluginFailedRegexp]
        · simp [pluginFailedRegexp]
    · intro g hg f hf
      obtain ⟨_, ts, _, ht, rfl, hb, hr, rfl⟩ := find_texts hg
      simp only [pluginFailedRegexp, List.map, texts_cons, texts_nil, TextOf] at ht
      obtain ⟨_, _, rfl, rfl, a, _, rfl, -, _, _, rfl, rfl, plugin, _, rfl, -, _, _, rfl, rfl, status, _, rfl, -, _, _, rfl, ⟨x, rfl⟩, rfl⟩ := ht
      cases hb rfl
      cases hr rfl
      refine ⟨_, _, _, reads_cast (by simp) (Reads.pluginStatus a plugin status x), ?_⟩
      injection hf with hf
      rw [← hf]
      simp [pluginFailedRegexp, group, plain, failureAt]
  · intro m line hn hd
    refine ⟨?_, ?_⟩
    · rintro ⟨_, _, _, h⟩
      cases h with
      | pluginOutput plugin text =>
        refine matches_texts (before := []) (rest := []) [s%"--", plugin, s%"_out: ", text] hn ?_ ?_ ?_ ?_
        · simp [otherPluginFailureRegexp, Texts, TextOf]
        · simp
        · simp [otherPluginFailureRegexp]
        · simp [otherPluginFailureRegexp]
    · intro g hg f hf
      obtain ⟨_, ts, _, ht, rfl, hb, hr, rfl⟩ := find_texts hg
      simp only [otherPluginFailureRegexp, List.map, texts_cons, texts_nil, TextOf] at ht
      obtain ⟨_, _, rfl, rfl, plugin, _, rfl, -, _, _, rfl, rfl, text, _, rfl, -, rfl⟩ := ht
      cases hb rfl
      cases hr rfl
      refine ⟨_, _, _, reads_cast (by simp) (Reads.pluginOutput plugin text), ?_⟩
      injection hf with hf
      rw [← hf]
      simp [otherPluginFailureRegexp, group, plain, failureAt]
  · intro m line hn hd
    refine ⟨?_, ?_⟩
    · rintro ⟨_, _, _, h⟩
      cases h with
      | pluginStatusLater before text a plugin status x =>
        refine matches_texts (before := before) (rest := []) [text, s%"--", a, s%"_out: protoc-gen-", plugin, s%": Plugin failed with status code ", status, [x]] hn ?_ ?_ ?_ ?_
        · simp [fullPluginFailedRegexp, Texts, TextOf]
        · simp
        · simp [fullPluginFailedRegexp]
        · simp [fullPluginFailedRegexp]
    · intro g hg f hf
      obtain ⟨before, ts, _, ht, rfl, hb, hr, rfl⟩ := find_texts hg
      simp only [fullPluginFailedRegexp, List.map, texts_cons, texts_nil, TextOf] at ht
      obtain ⟨text, _, rfl, -, _, _, rfl, rfl, a, _, rfl, -, _, _, rfl, rfl, plugin, _, rfl, -, _, _, rfl, rfl, status, _, rfl, -, _, _, rfl, ⟨x, rfl⟩, rfl⟩ := ht
      cases hr rfl
      refine ⟨_, _, _, reads_cast (by simp) (Reads.pluginStatusLater before text a plugin status x), ?_⟩
      injection hf with hf
      rw [← hf]
      simp [fullPluginFailedRegexp, group, plain, failureAt]

theorem lineRules_kinds : Pointwise RuleFor lineRules lineKinds := by
  unfold lineRules lineKinds
  refine .cons ?_ (.cons ?_ (.cons ?_ (.cons ?_ (.cons ?_ (.cons ?_ (.cons ?_ (.cons ?_ (.cons ?_ (.cons ?_ (.cons ?_ (.cons ?_ (.cons ?_ (.cons ?_ (.cons ?_ (.cons ?_ (.cons ?_ (.nil)))))))))))))))))
  · intro m line hn hd
    refine ⟨?_, ?_⟩
    · rintro ⟨_, _, _, h⟩
      cases h with
      | noSyntax before file after =>
        refine matches_texts (before := before) (rest := after) [s%"No syntax specified for the proto file: ", file, s%". Please use"] hn ?_ ?_ ?_ ?_
        · simp [noSyntaxSpecifiedRegexp, Texts, TextOf]
        · simp
        · simp [noSyntaxSpecifiedRegexp]
        · simp [noSyntaxSpecifiedRegexp]
    · intro g hg f hf
      obtain ⟨before, ts, after, ht, rfl, hb, hr, rfl⟩ := find_texts hg
      simp only [noSyntaxSpecifiedRegexp, List.map, texts_cons, texts_nil, TextOf] at ht
      obtain ⟨_, _, rfl, rfl, file, _, rfl, -, _, _, rfl, rfl, rfl⟩ := ht
      refine ⟨_, _, _, reads_cast (by simp) (Reads.noSyntax before file after), ?_⟩
      rw [failureAt_file hd]
      injection hf with hf
      rw [← hf]
      simp [noSyntaxSpecifiedRegexp, group]
  · intro m line hn hd
    refine ⟨?_, ?_⟩
    · rintro ⟨_, _, _, h⟩
      cases h with
      | unusedImport3110 file l c imp x hl hc =>
        refine matches_texts (before := []) (rest := []) [file, s%":", l, s%":", c, s%": ", s%"warning: Import ", imp, s%" is unused", [x]] hn ?_ ?_ ?_ ?_
        · simp [extraImport3110Regexp, position, Texts, TextOf, hl, hc]
        · simp
        · simp [extraImport3110Regexp]
        · simp [extraImport3110Regexp]
    · intro g hg f hf
      obtain ⟨_, ts, _, ht, rfl, hb, hr, rfl⟩ := find_texts hg
      simp only [extraImport3110Regexp, position, List.append, List.cons_append, List.nil_append, List.map, texts_cons, texts_nil, TextOf] at ht
      obtain ⟨file, _, rfl, -, _, _, rfl, rfl, l, _, rfl, hl, _, _, rfl, rfl, c, _, rfl, hc, _, _, rfl, rfl, _, _, rfl, rfl, imp, _, rfl, -, _, _, rfl, rfl, _, _, rfl, ⟨x, rfl⟩, rfl⟩ := ht
      cases hb rfl
      cases hr rfl
      refine ⟨_, _, _, reads_cast (by simp) (Reads.unusedImport3110 file l c imp x hl hc), ?_⟩
      rw [unusedImport_some hf]
      rw [failureAt_located hd]
      simp [extraImport3110Regexp, position, group, importNotUsed]
  · intro m line hn hd
    refine ⟨?_, ?_⟩
    · rintro ⟨_, _, _, h⟩
      cases h with
      | unusedImport380 file l c imp x hl hc =>
        refine matches_texts (before := []) (rest := []) [file, s%":", l, s%":", c, s%": ", s%"warning: Import ", imp, s%" but not used", [x]] hn ?_ ?_ ?_ ?_
        · simp [extraImport380Regexp, position, Texts, TextOf, hl, hc]
        · simp
        · simp [extraImport380Regexp]
        · simp [extraImport380Regexp]
    · intro g hg f hf
      obtain ⟨_, ts, _, ht, rfl, hb, hr, rfl⟩ := find_texts hg
      simp only [extraImport380Regexp, position, List.append, List.cons_append, List.nil_append, List.map, texts_cons, texts_nil, TextOf] at ht
      obtain ⟨file, _, rfl, -, _, _, rfl, rfl, l, _, rfl, hl, _, _, rfl, rfl, c, _, rfl, hc, _, _, rfl, rfl, _, _, rfl, rfl, imp, _, rfl, -, _, _, rfl, rfl, _, _, rfl, ⟨x, rfl⟩, rfl⟩ := ht
      cases hb rfl
      cases hr rfl
      refine ⟨_, _, _, reads_cast (by simp) (Reads.unusedImport380 file l c imp x hl hc), ?_⟩
      rw [unusedImport_some hf]
      rw [failureAt_located hd]
      simp [extraImport380Regexp, position, group, importNotUsed]
  · intro m line hn hd
    refine ⟨?_, ?_⟩
    · rintro ⟨_, _, _, h⟩
      cases h with
      | unusedImport file imp x =>
        refine matches_texts (before := []) (rest := []) [file, s%": warning: Import ", imp, s%" but not used", [x]] hn ?_ ?_ ?_ ?_
        · simp [extraImportRegexp, Texts, TextOf]
        · simp
        · simp [extraImportRegexp]
        · simp [extraImportRegexp]
    · intro g hg f hf
      obtain ⟨_, ts, _, ht, rfl, hb, hr, rfl⟩ := find_texts hg
      simp only [extraImportRegexp, List.map, texts_cons, texts_nil, TextOf] at ht
      obtain ⟨file, _, rfl, -, _, _, rfl, rfl, imp, _, rfl, -, _, _, rfl, rfl, _, _, rfl, ⟨x, rfl⟩, rfl⟩ := ht
      cases hb rfl
      cases hr rfl
      refine ⟨_, _, _, reads_cast (by simp) (Reads.unusedImport file imp x), ?_⟩
      rw [unusedImport_some hf]
      rw [failureAt_file hd]
      simp [extraImportRegexp, group, importNotUsed]
  · intro m line hn hd
    refine ⟨?_, ?_⟩
    · rintro ⟨_, _, _, h⟩
      cases h with
      | recursiveImport380 file l c path hl hc =>
        refine matches_texts (before := []) (rest := []) [file, s%":", l, s%":", c, s%": ", s%"File recursively imports itself: ", path] hn ?_ ?_ ?_ ?_
        · simp [recursiveImport380Regexp, position, Texts, TextOf, hl, hc]
        · simp
        · simp [recursiveImport380Regexp]
        · simp [recursiveImport380Regexp]
    · intro g hg f hf
      obtain ⟨_, ts, _, ht, rfl, hb, hr, rfl⟩ := find_texts hg
      simp only [recursiveImport380Regexp, position, List.append, List.cons_append, List.nil_append, List.map, texts_cons, texts_nil, TextOf] at ht
      obtain ⟨file, _, rfl, -, _, _, rfl, rfl, l, _, rfl, hl, _, _, rfl, rfl, c, _, rfl, hc, _, _, rfl, rfl, _, _, rfl, rfl, path, _, rfl, -, rfl⟩ := ht
      cases hb rfl
      cases hr rfl
      refine ⟨_, _, _, reads_cast (by simp) (Reads.recursiveImport380 file l c path hl hc), ?_⟩
      rw [failureAt_located hd]
      injection hf with hf
      rw [← hf]
      simp [recursiveImport380Regexp, position, group]
  · intro m line hn hd
    refine ⟨?_, ?_⟩
    · rintro ⟨_, _, _, h⟩
      cases h with
      | recursiveImport file path =>
        refine matches_texts (before := []) (rest := []) [file, s%": File recursively imports itself: ", path] hn ?_ ?_ ?_ ?_
        · simp [recursiveImportRegexp, Texts, TextOf]
        · simp
        · simp [recursiveImportRegexp]
        · simp [recursiveImportRegexp]
    · intro g hg f hf
      obtain ⟨_, ts, _, ht, rfl, hb, hr, rfl⟩ := find_texts hg
      simp only [recursiveImportRegexp, List.map, texts_cons, texts_nil, TextOf] at ht
      obtain ⟨file, _, rfl, -, _, _, rfl, rfl, path, _, rfl, -, rfl⟩ := ht
      cases hb rfl
      cases hr rfl
      refine ⟨_, _, _, reads_cast (by simp) (Reads.recursiveImport file path), ?_⟩
      rw [failureAt_file hd]
      injection hf with hf
      rw [← hf]
      simp [recursiveImportRegexp, group]
  · intro m line hn hd
    refine ⟨?_, ?_⟩
    · rintro ⟨_, _, _, h⟩
      cases h with
      | noDirectory dir x =>
        refine matches_texts (before := []) (rest := []) [dir, s%": warning: directory does not exist", [x]] hn ?_ ?_ ?_ ?_
        · simp [directoryDoesNotExistRegexp, Texts, TextOf]
        · simp
        · simp [directoryDoesNotExistRegexp]
        · simp [directoryDoesNotExistRegexp]
    · intro g hg f hf
      obtain ⟨_, ts, _, ht, rfl, hb, hr, rfl⟩ := find_texts hg
      simp only [directoryDoesNotExistRegexp, List.map, texts_cons, texts_nil, TextOf] at ht
      obtain ⟨dir, _, rfl, -, _, _, rfl, rfl, _, _, rfl, ⟨x, rfl⟩, rfl⟩ := ht
      cases hb rfl
      cases hr rfl
      refine ⟨_, _, _, reads_cast (by simp) (Reads.noDirectory dir x), ?_⟩
      injection hf with hf
      rw [← hf]
      simp [directoryDoesNotExistRegexp, group, plain, failureAt]
  · intro m line hn hd
    refine ⟨?_, ?_⟩
    · rintro ⟨_, _, _, h⟩
      cases h with
      | fileNotFound imp x =>
        refine matches_texts (before := []) (rest := []) [imp, s%": File not found", [x]] hn ?_ ?_ ?_ ?_
        · simp [fileNotFoundRegexp, Texts, TextOf]
        · simp
        · simp [fileNotFoundRegexp]
        · simp [fileNotFoundRegexp]
    · intro g hg f hf
      obtain ⟨_, ts, _, ht, rfl, hb, hr, rfl⟩ := find_texts hg
      simp only [fileNotFoundRegexp, List.map, texts_cons, texts_nil, TextOf] at ht
      obtain ⟨imp, _, rfl, -, _, _, rfl, rfl, _, _, rfl, ⟨x, rfl⟩, rfl⟩ := ht
      cases hb rfl
      cases hr rfl
      refine ⟨_, _, _, reads_cast (by simp) (Reads.fileNotFound imp x), ?_⟩
      injection hf with hf
      rw [← hf]
      simp [fileNotFoundRegexp, group, plain, failureAt]
  · intro m line hn hd
    refine ⟨?_, ?_⟩
    · rintro ⟨_, _, _, h⟩
      cases h with
      | explicitDefault file x =>
        refine matches_texts (before := []) (rest := []) [file, s%": Explicit default values are not allowed in proto3", [x]] hn ?_ ?_ ?_ ?_
        · simp [explicitDefaultValuesProto3Regexp, Texts, TextOf]
        · simp
        · simp [explicitDefaultValuesProto3Regexp]
        · simp [explicitDefaultValuesProto3Regexp]
    · intro g hg f hf
      obtain ⟨_, ts, _, ht, rfl, hb, hr, rfl⟩ := find_texts hg
      simp only [explicitDefaultValuesProto3Regexp, List.map, texts_cons, texts_nil, TextOf] at ht
      obtain ⟨file, _, rfl, -, _, _, rfl, rfl, _, _, rfl, ⟨x, rfl⟩, rfl⟩ := ht
      cases hb rfl
      cases hr rfl
      refine ⟨_, _, _, reads_cast (by simp) (Reads.explicitDefault file x), ?_⟩
      rw [failureAt_file hd]
      injection hf with hf
      rw [← hf]
      simp [explicitDefaultValuesProto3Regexp, group]
  · intro m line hn hd
    refine ⟨?_, ?_⟩
    · rintro ⟨_, _, _, h⟩
      cases h with
      | importNotFound file imp x =>
        refine matches_texts (before := []) (rest := []) [file, s%": Import ", imp, s%" was not found or had errors", [x]] hn ?_ ?_ ?_ ?_
        · simp [importNotFoundRegexp, Texts, TextOf]
        · simp
        · simp [importNotFoundRegexp]
        · simp [importNotFoundRegexp]
    · intro g hg f hf
      cases hf
  · intro m line hn hd
    refine ⟨?_, ?_⟩
    · rintro ⟨_, _, _, h⟩
      cases h with
      | jsonName380 file l c text hl hc =>
        refine matches_texts (before := []) (rest := []) [file, s%":", l, s%":", c, s%": ", s%"The JSON camel-case name of field", text] hn ?_ ?_ ?_ ?_
        · simp [jsonCamelCase380Regexp, position, Texts, TextOf, hl, hc]
        · simp
        · simp [jsonCamelCase380Regexp]
        · simp [jsonCamelCase380Regexp]
    · intro g hg f hf
      obtain ⟨_, ts, _, ht, rfl, hb, hr, rfl⟩ := find_texts hg
      simp only [jsonCamelCase380Regexp, position, List.append, List.cons_append, List.nil_append, List.map, texts_cons, texts_nil, TextOf] at ht
      obtain ⟨file, _, rfl, -, _, _, rfl, rfl, l, _, rfl, hl, _, _, rfl, rfl, c, _, rfl, hc, _, _, rfl, rfl, _, _, rfl, rfl, text, _, rfl, -, rfl⟩ := ht
      cases hb rfl
      cases hr rfl
      refine ⟨_, _, _, reads_cast (by simp) (Reads.jsonName380 file l c text hl hc), ?_⟩
      rw [failureAt_located hd]
      injection hf with hf
      rw [← hf]
      simp [jsonCamelCase380Regexp, position, group]
  · intro m line hn hd
    refine ⟨?_, ?_⟩
    · rintro ⟨_, _, _, h⟩
      cases h with
      | jsonName file text =>
        refine matches_texts (before := []) (rest := []) [file, s%": ", s%"The JSON camel-case name of field", text] hn ?_ ?_ ?_ ?_
        · simp [jsonCamelCaseRegexp, Texts, TextOf]
        · simp
        · simp [jsonCamelCaseRegexp]
        · simp [jsonCamelCaseRegexp]
    · intro g hg f hf
      obtain ⟨_, ts, _, ht, rfl, hb, hr, rfl⟩ := find_texts hg
      simp only [jsonCamelCaseRegexp, List.map, texts_cons, texts_nil, TextOf] at ht
      obtain ⟨file, _, rfl, -, _, _, rfl, rfl, _, _, rfl, rfl, text, _, rfl, -, rfl⟩ := ht
      cases hb rfl
      cases hr rfl
      refine ⟨_, _, _, reads_cast (by simp) (Reads.jsonName file text), ?_⟩
      rw [failureAt_file hd]
      injection hf with hf
      rw [← hf]
      simp [jsonCamelCaseRegexp, group]
  · intro m line hn hd
    refine ⟨?_, ?_⟩
    · rintro ⟨_, _, _, h⟩
      cases h with
      | notDefined file name x =>
        refine matches_texts (before := []) (rest := []) [file, s%": ", name, s%" is not defined", [x]] hn ?_ ?_ ?_ ?_
        · simp [isNotDefinedRegexp, Texts, TextOf]
        · simp
        · simp [isNotDefinedRegexp]
        · simp [isNotDefinedRegexp]
    · intro g hg f hf
      obtain ⟨_, ts, _, ht, rfl, hb, hr, rfl⟩ := find_texts hg
      simp only [isNotDefinedRegexp, List.map, texts_cons, texts_nil, TextOf] at ht
      obtain ⟨file, _, rfl, -, _, _, rfl, rfl, name, _, rfl, -, _, _, rfl, rfl, _, _, rfl, ⟨x, rfl⟩, rfl⟩ := ht
      cases hb rfl
      cases hr rfl
      refine ⟨_, _, _, reads_cast (by simp) (Reads.notDefined file name x), ?_⟩
      rw [failureAt_file hd]
      injection hf with hf
      rw [← hf]
      simp [isNotDefinedRegexp, group]
  · intro m line hn hd
    refine ⟨?_, ?_⟩
    · rintro ⟨_, _, _, h⟩
      cases h with
      | definedElsewhere file name other importer x y =>
        refine matches_texts (before := []) (rest := []) [file, s%": ", s%"\"", name, s%"\" seems to be defined in \"", other, s%"\", which is not imported by \"", importer, s%"\"", [x], s%" To use it here, please add the necessary import", [y]] hn ?_ ?_ ?_ ?_
        · simp [seemsToBeDefinedRegexp, Texts, TextOf]
        · simp
        · simp [seemsToBeDefinedRegexp]
        · simp [seemsToBeDefinedRegexp]
    · intro g hg f hf
      obtain ⟨_, ts, _, ht, rfl, hb, hr, rfl⟩ := find_texts hg
      simp only [seemsToBeDefinedRegexp, List.map, texts_cons, texts_nil, TextOf] at ht
      obtain ⟨file, _, rfl, -, _, _, rfl, rfl, _, _, rfl, rfl, name, _, rfl, -, _, _, rfl, rfl, other, _, rfl, -, _, _, rfl, rfl, importer, _, rfl, -, _, _, rfl, rfl, _, _, rfl, ⟨x, rfl⟩, _, _, rfl, rfl, _, _, rfl, ⟨y, rfl⟩, rfl⟩ := ht
      cases hb rfl
      cases hr rfl
      refine ⟨_, _, _, reads_cast (by simp) (Reads.definedElsewhere file name other importer x y), ?_⟩
      rw [failureAt_file hd]
      injection hf with hf
      rw [← hf]
      simp [seemsToBeDefinedRegexp, group]
  · intro m line hn hd
    refine ⟨?_, ?_⟩
    · rintro ⟨_, _, _, h⟩
      cases h with
      | optionValue file text =>
        refine matches_texts (before := []) (rest := []) [file, s%": Error while parsing option value for ", text] hn ?_ ?_ ?_ ?_
        · simp [optionValueRegexp, Texts, TextOf]
        · simp
        · simp [optionValueRegexp]
        · simp [optionValueRegexp]
    · intro g hg f hf
      obtain ⟨_, ts, _, ht, rfl, hb, hr, rfl⟩ := find_texts hg
      simp only [optionValueRegexp, List.map, texts_cons, texts_nil, TextOf] at ht
      obtain ⟨file, _, rfl, -, _, _, rfl, rfl, text, _, rfl, -, rfl⟩ := ht
      cases hb rfl
      cases hr rfl
      refine ⟨_, _, _, reads_cast (by simp) (Reads.optionValue file text), ?_⟩
      rw [failureAt_file hd]
      injection hf with hf
      rw [← hf]
      simp [optionValueRegexp, group]
  · intro m line hn hd
    refine ⟨?_, ?_⟩
    · rintro ⟨_, _, _, h⟩
      cases h with
      | programNotFound before plugin =>
        refine matches_texts (before := before) (rest := []) [s%"protoc-gen-", plugin, s%": program not found or is not executable"] hn ?_ ?_ ?_ ?_
        · simp [programNotFoundRegexp, Texts, TextOf]
        · simp
        · simp [programNotFoundRegexp]
        · simp [programNotFoundRegexp]
    · intro g hg f hf
      obtain ⟨before, ts, _, ht, rfl, hb, hr, rfl⟩ := find_texts hg
      simp only [programNotFoundRegexp, List.map, texts_cons, texts_nil, TextOf] at ht
      obtain ⟨_, _, rfl, rfl, plugin, _, rfl, -, _, _, rfl, rfl, rfl⟩ := ht
      cases hr rfl
      refine ⟨_, _, _, reads_cast (by simp) (Reads.programNotFound before plugin), ?_⟩
      injection hf with hf
      rw [← hf]
      simp [programNotFoundRegexp, group, plain, failureAt]
  · intro m line hn hd
    refine ⟨?_, ?_⟩
    · rintro ⟨_, _, _, h⟩
      cases h with
      | firstEnumValue file x =>
        refine matches_texts (before := []) (rest := []) [file, s%": The first enum value must be zero in proto3", [x]] hn ?_ ?_ ?_ ?_
        · simp [firstEnumValueZeroRegexp, Texts, TextOf]
        · simp
        · simp [firstEnumValueZeroRegexp]
        · simp [firstEnumValueZeroRegexp]
    · intro g hg f hf
      obtain ⟨_, ts, _, ht, rfl, hb, hr, rfl⟩ := find_texts hg
      simp only [firstEnumValueZeroRegexp, List.map, texts_cons, texts_nil, TextOf] at ht
      obtain ⟨file, _, rfl, -, _, _, rfl, rfl, _, _, rfl, ⟨x, rfl⟩, rfl⟩ := ht
      cases hb rfl
      cases hr rfl
      refine ⟨_, _, _, reads_cast (by simp) (Reads.firstEnumValue file x), ?_⟩
      rw [failureAt_file hd]
      injection hf with hf
      rw [← hf]
      simp [firstEnumValueZeroRegexp, group]

end Verif.Protoc
