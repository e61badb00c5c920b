import Verif.Spec.Compile

/-! # Specification: what the lines of protoc mean -/

namespace Verif.Spec

open Verif Str File Text

/-- The kinds of lines that are understood besides `file:line:column:message`. -/
inductive LineKind where
  | pluginStatus
  | pluginOutput
  | pluginStatusLater
  | noSyntax
  | unusedImport3110
  | unusedImport380
  | unusedImport
  | recursiveImport380
  | recursiveImport
  | noDirectory
  | fileNotFound
  | explicitDefault
  | importNotFound
  | jsonName380
  | jsonName
  | notDefined
  | definedElsewhere
  | optionValue
  | programNotFound
  | firstEnumValue

/-- What a line of a kind means: the file it names, the place in the file and the message. -/
inductive Reads : LineKind → (line : Str) → (file : Option Str) → (place : Option (Str × Str)) →
    (message : Str) → Prop where
  | pluginStatus (a plugin status x) : Reads .pluginStatus
      (s%"--" ++ a ++ s%"_out: protoc-gen-" ++ plugin ++ s%": Plugin failed with status code " ++ status ++ [x])
      none none (s%"protoc-gen-" ++ plugin ++ s%" failed with status code " ++ status ++ s%".")
  | pluginOutput (plugin text) : Reads .pluginOutput
      (s%"--" ++ plugin ++ s%"_out: " ++ text)
      none none (s%"protoc-gen-" ++ plugin ++ s%": " ++ text)
  | pluginStatusLater (before text a plugin status x) : Reads .pluginStatusLater
      (before ++ text ++ s%"--" ++ a ++ s%"_out: protoc-gen-" ++ plugin ++
        s%": Plugin failed with status code " ++ status ++ [x])
      none none (s%"protoc-gen-" ++ plugin ++ s%" failed with status code " ++ status ++ s%": " ++ text)
  | noSyntax (before file after) : Reads .noSyntax
      (before ++ s%"No syntax specified for the proto file: " ++ file ++ s%". Please use" ++ after)
      (some file) none
      s%"No syntax specified. Please use 'syntax = \"proto2\";' or 'syntax = \"proto3\";' to specify a syntax version."
  | unusedImport3110 (file l c imp x) (hl : Number l) (hc : Number c) : Reads .unusedImport3110
      (file ++ s%":" ++ l ++ s%":" ++ c ++ s%": warning: Import " ++ imp ++ s%" is unused" ++ [x])
      (some file) (some (l, c)) (s%"Import \"" ++ imp ++ s%"\" was not used.")
  | unusedImport380 (file l c imp x) (hl : Number l) (hc : Number c) : Reads .unusedImport380
      (file ++ s%":" ++ l ++ s%":" ++ c ++ s%": warning: Import " ++ imp ++ s%" but not used" ++ [x])
      (some file) (some (l, c)) (s%"Import \"" ++ imp ++ s%"\" was not used.")
  | unusedImport (file imp x) : Reads .unusedImport
      (file ++ s%": warning: Import " ++ imp ++ s%" but not used" ++ [x])
      (some file) none (s%"Import \"" ++ imp ++ s%"\" was not used.")
  | recursiveImport380 (file l c path) (hl : Number l) (hc : Number c) : Reads .recursiveImport380
      (file ++ s%":" ++ l ++ s%":" ++ c ++ s%": File recursively imports itself: " ++ path)
      (some file) (some (l, c)) (s%"File recursively imports itself " ++ path ++ s%".")
  | recursiveImport (file path) : Reads .recursiveImport
      (file ++ s%": File recursively imports itself: " ++ path)
      (some file) none (s%"File recursively imports itself " ++ path ++ s%".")
  | noDirectory (dir x) : Reads .noDirectory
      (dir ++ s%": warning: directory does not exist" ++ [x])
      none none (s%"Directory \"" ++ dir ++ s%"\" does not exist.")
  | fileNotFound (imp x) : Reads .fileNotFound
      (imp ++ s%": File not found" ++ [x])
      none none (s%"Import \"" ++ imp ++ s%"\" was not found.")
  | explicitDefault (file x) : Reads .explicitDefault
      (file ++ s%": Explicit default values are not allowed in proto3" ++ [x])
      (some file) none s%"Explicit default values are not allowed in proto3."
  | importNotFound (file imp x) : Reads .importNotFound
      (file ++ s%": Import " ++ imp ++ s%" was not found or had errors" ++ [x])
      (some file) none s%""
  | jsonName380 (file l c text) (hl : Number l) (hc : Number c) : Reads .jsonName380
      (file ++ s%":" ++ l ++ s%":" ++ c ++ s%": The JSON camel-case name of field" ++ text)
      (some file) (some (l, c)) (s%"The JSON camel-case name of field" ++ text)
  | jsonName (file text) : Reads .jsonName
      (file ++ s%": The JSON camel-case name of field" ++ text)
      (some file) none (s%"The JSON camel-case name of field" ++ text)
  | notDefined (file name x) : Reads .notDefined
      (file ++ s%": " ++ name ++ s%" is not defined" ++ [x])
      (some file) none (name ++ s%" is not defined.")
  | definedElsewhere (file name other importer x y) : Reads .definedElsewhere
      (file ++ s%": \"" ++ name ++ s%"\" seems to be defined in \"" ++ other ++
        s%"\", which is not imported by \"" ++ importer ++ s%"\"" ++ [x] ++
        s%" To use it here, please add the necessary import" ++ [y])
      (some file) none (s%"\"" ++ name ++ s%"\" seems to be defined in \"" ++ other ++
        s%"\", which is not imported by \"" ++ importer ++ s%"\"" ++ [x] ++
        s%" To use it here, please add the necessary import" ++ [y])
  | optionValue (file text) : Reads .optionValue
      (file ++ s%": Error while parsing option value for " ++ text)
      (some file) none (s%"Error while parsing option value for " ++ text)
  | programNotFound (before plugin) : Reads .programNotFound
      (before ++ s%"protoc-gen-" ++ plugin ++ s%": program not found or is not executable")
      none none (s%"protoc-gen-" ++ plugin ++ s%" not found or is not executable.")
  | firstEnumValue (file x) : Reads .firstEnumValue
      (file ++ s%": The first enum value must be zero in proto3" ++ [x])
      (some file) none s%"The first enum value must be zero in proto3."

/-- The kinds of lines about plugins. They are tried first, in this order. -/
def pluginKinds : List LineKind := [.pluginStatus, .pluginOutput, .pluginStatusLater]

/-- The other kinds, in the order they are tried. -/
def lineKinds : List LineKind :=
  [.noSyntax, .unusedImport3110, .unusedImport380, .unusedImport, .recursiveImport380,
   .recursiveImport, .noDirectory, .fileNotFound, .explicitDefault, .importNotFound, .jsonName380,
   .jsonName, .notDefined, .definedElsewhere, .optionValue, .programNotFound, .firstEnumValue]

/-- The line is of the kind. -/
def IsKind (line : Str) (k : LineKind) : Prop := ∃ file place message, Reads k line file place message

/-- The failure for a line that is not understood: it has the line as its message. -/
def unread (line : Str) : Failure := ⟨[], 0, 0, [], line⟩

/-- The failure with this file, place and message. A place that Go's `Atoi` cannot read makes the
whole line one that is not understood. -/
def failureAt (files : List ProtoFile) (line : Str) (file : Option Str) (place : Option (Str × Str))
    (message : Str) : Failure :=
  let name := match file with
    | none => []
    | some file => fileNamed files file
  match place with
  | none => ⟨name, 0, 0, [], message⟩
  | some (l, c) =>
    match atoi l, atoi c with
    | some l, some c => ⟨name, l, c, [], message⟩
    | _, _ => unread line

/-- The failure says what the line means as a line of its first kind of these. -/
def FirstReading (files : List ProtoFile) (kinds : List LineKind) (line : Str) (f : Failure) : Prop :=
  ∃ before k after file place message, kinds = before ++ k :: after ∧
    (∀ j ∈ before, ¬ IsKind line j) ∧ Reads k line file place message ∧
    f = failureAt files line file place message

end Verif.Spec
