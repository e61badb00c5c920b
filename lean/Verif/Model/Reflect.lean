import Verif.Go.SortSlice
import Verif.Go.Keyed
import Verif.Model.Descriptor
import Verif.Model.Strs

/-!
# Model of internal/reflect/reflect.go

`marshal` stands for `proto.Marshal`. The out-of-range access of the "super unsafe"
oneof lookup (a panic in Go) is an error here.
-/

namespace Verif.Reflect

open Verif Descriptor

/-- `verifyFullyQualifiedNameAndStrip`, internal/reflect/reflect.go:393-401. -/
def verifyAndStrip : Str → Except Err Str
  | [] => .error (s%"name empty")
  | c :: cs => if c ≠ '.' then .error (c :: cs ++ s%" does not start with '.'") else .ok cs

/-- `newEnum`, internal/reflect/reflect.go:260-272. -/
def newEnum (s : SortSlice) (e : Enum) : Enum :=
  ⟨e.name, s.run (fun a b => decide (a.number < b.number)) e.values⟩

/-- `getEnums`, internal/reflect/reflect.go:244-258. -/
def getEnums (s : SortSlice) (es : List Enum) : List Enum :=
  if es.length = 0 then []
  else s.run (fun a b => Str.lt a.name b.name) (es.map (newEnum s))

/-- The type name of a field, internal/reflect/reflect.go:312-318. -/
def fieldTypeName (f : FieldDesc) : Except Err Str :=
  if f.typeName = [] then .ok [] else verifyAndStrip f.typeName

/-- Appends a number to the oneof of the given name, internal/reflect/reflect.go:331-333. -/
def addToOneof (oneofs : List Oneof) (name : Str) (number : Int) : List Oneof :=
  oneofs.map fun w => if w.name = name then ⟨w.name, w.fieldNumbers ++ [number]⟩ else w

/-- The field loop of `newMessage`, internal/reflect/reflect.go:311-335. -/
def fieldLoop (decls : List Str) : List FieldDesc → List Field → List Oneof →
    Except Err (List Field × List Oneof)
  | [], fields, oneofs => .ok (fields, oneofs)
  | f :: fs, fields, oneofs =>
    match fieldTypeName f with
    | .error e => .error e
    | .ok typeName =>
      let field : Field := ⟨f.name, f.number, f.label, f.type, typeName⟩
      match f.oneofIndex with
      | none => fieldLoop decls fs (fields ++ [field]) oneofs
      | some i =>
        match decls[i]? with
        | none => .error (s%"panic: index out of range")
        | some name => fieldLoop decls fs (fields ++ [field]) (addToOneof oneofs name f.number)

/-- `newMessage` after the nested messages and enums are built,
internal/reflect/reflect.go:299-341. -/
def finishMessage (s : SortSlice) (o : Order) (site : Site) (name : Str) (nested : List Message)
    (enums : List Enum) (fields : List FieldDesc) (decls : List Str) : Except Err Message :=
  match fieldLoop decls fields [] (kmap (·.name) (decls.map fun n => (⟨n, []⟩ : Oneof))) with
  | .error e => .error e
  | .ok (fields, oneofs) =>
    let oneofs := (o.ord site oneofs).map fun w =>
      (⟨w.name, s.run (fun a b => decide (a < b)) w.fieldNumbers⟩ : Oneof)
    .ok (.mk name nested enums
      (s.run (fun a b => decide (a.number < b.number)) fields)
      (s.run (fun a b => Str.lt a.name b.name) oneofs))

mutual
/-- `newMessage`, internal/reflect/reflect.go:290-342. -/
def newMessage (s : SortSlice) (o : Order) (site : Site) : MessageDesc → Except Err Message
  | .mk name nested enums fields oneofs =>
    match newMessages s o (name :: site) nested with
    | .error e => .error e
    | .ok nestedMessages =>
      finishMessage s o (name :: site) name
        (s.run (fun a b => Str.lt a.name b.name) nestedMessages) (getEnums s enums) fields oneofs

/-- The loop of `getMessages`, internal/reflect/reflect.go:279-285. -/
def newMessages (s : SortSlice) (o : Order) (site : Site) : List MessageDesc → Except Err (List Message)
  | [] => .ok []
  | m :: ms =>
    match newMessage s o site m with
    | .error e => .error e
    | .ok x =>
      match newMessages s o site ms with
      | .error e => .error e
      | .ok xs => .ok (x :: xs)
end

/-- `getMessages`, internal/reflect/reflect.go:274-288. Sorting no messages returns no
messages, so the case of an empty list needs no branch; in `newMessage` above this
function is written out. -/
def getMessages (s : SortSlice) (o : Order) (site : Site) (ms : List MessageDesc) :
    Except Err (List Message) :=
  match newMessages s o site ms with
  | .error e => .error e
  | .ok xs => .ok (s.run (fun a b => Str.lt a.name b.name) xs)

/-- `newServiceMethod`, internal/reflect/reflect.go:375-391. -/
def newServiceMethod (m : MethodDesc) : Except Err Method :=
  match verifyAndStrip m.inputType with
  | .error e => .error e
  | .ok request =>
    match verifyAndStrip m.outputType with
    | .error e => .error e
    | .ok response => .ok ⟨m.name, request, response, m.clientStreaming, m.serverStreaming⟩

/-- Runs a function on all elements, stopping at the first error. -/
def mapErr {α β : Type} (f : α → Except Err β) : List α → Except Err (List β)
  | [] => .ok []
  | a :: as =>
    match f a with
    | .error e => .error e
    | .ok b =>
      match mapErr f as with
      | .error e => .error e
      | .ok bs => .ok (b :: bs)

/-- `newService`, internal/reflect/reflect.go:360-373. -/
def newService (s : SortSlice) (d : ServiceDesc) : Except Err Service :=
  match mapErr newServiceMethod d.methods with
  | .error e => .error e
  | .ok ms => .ok ⟨d.name, s.run (fun a b => Str.lt a.name b.name) ms⟩

/-- `getServices`, internal/reflect/reflect.go:344-358. -/
def getServices (s : SortSlice) (ds : List ServiceDesc) : Except Err (List Service) :=
  match mapErr (newService s) ds with
  | .error e => .error e
  | .ok xs => .ok (s.run (fun a b => Str.lt a.name b.name) xs)

/-- Concatenates the results of loop bodies, stopping at the first error. -/
def concatRes {α : Type} : List (Except Err (List α)) → Except Err (List α)
  | [] => .ok []
  | .error e :: _ => .error e
  | .ok xs :: rest =>
    match concatRes rest with
    | .error e => .error e
    | .ok ys => .ok (xs ++ ys)

/-- The map from package name to file name to file. -/
abbrev FileMap := GoMap Str (List FileDesc)

/-- The loop body of `getPackageNameToFileNameToFileDescriptorProto`,
internal/reflect/reflect.go:77-109. -/
def addFile (marshal : FileDesc → Except Err Str) (m : FileMap) (f : FileDesc) : Except Err FileMap :=
  match f.package with
  | [] => .error (s%"no package on FileDescriptorProto")
  | c :: cs =>
    if c = '.' then .error (s%"malformed package fully-qualified name " ++ (c :: cs))
    else
      let existingMap := (m.get? f.package).getD []
      match kget (·.name) existingMap f.name with
      | some existing =>
        match marshal f with
        | .error e => .error e
        | .ok data =>
          match marshal existing with
          | .error e => .error e
          | .ok existingData =>
            if data ≠ existingData then .error (s%"unequal FileDescriptorProtos for " ++ f.name)
            else .ok m
      | none => .ok (m.set f.package (existingMap ++ [f]))

/-- `getPackageNameToFileNameToFileDescriptorProto`, internal/reflect/reflect.go:73-112,
over the files of all sets. -/
def collect (marshal : FileDesc → Except Err Str) : List FileDesc → FileMap → Except Err FileMap
  | [], m => .ok m
  | f :: fs, m =>
    match addFile marshal m f with
    | .error e => .error e
    | .ok m => collect marshal fs m

/-- The inner loop of `getFileNameToPackageName`, internal/reflect/reflect.go:230-239. -/
def addFileNames (packageName : Str) : List Str → GoMap Str Str → Except Err (GoMap Str Str)
  | [], t => .ok t
  | n :: ns, t =>
    match t.get? n with
    | some existing =>
      if existing ≠ packageName then
        .error (s%"mismatched packages names " ++ existing ++ s%" and " ++ packageName ++
          s%" for file " ++ n)
      else addFileNames packageName ns t
    | none => addFileNames packageName ns (t.set n packageName)

/-- `getFileNameToPackageName`, internal/reflect/reflect.go:227-242, over the packages in
the visited order. -/
def fileNameToPackageName (o : Order) : FileMap → GoMap Str Str → Except Err (GoMap Str Str)
  | [], t => .ok t
  | (packageName, files) :: rest, t =>
    match addFileNames packageName (o.ord [packageName, s%"names"] (files.map (·.name))) t with
    | .error e => .error e
    | .ok t => fileNameToPackageName o rest t

/-- The innermost loop of `populateDependencies`, internal/reflect/reflect.go:138-146. -/
def fileDependencies (t : GoMap Str Str) (packageName : Str) : List Str → Except Err (List Str)
  | [] => .ok []
  | d :: ds =>
    match t.get? d with
    | none => .error (s%"no package for dep " ++ d)
    | some depPackageName =>
      match fileDependencies t packageName ds with
      | .error e => .error e
      | .ok rest => .ok (if depPackageName ≠ packageName then depPackageName :: rest else rest)

/-- `populateDependencies` for one package, internal/reflect/reflect.go:137-153. -/
def packageDependencies (o : Order) (t : GoMap Str Str) (packageName : Str) (files : List FileDesc) :
    Except Err (List Str) :=
  match concatRes (o.ord [packageName, s%"dependencies"]
    (files.map fun f => fileDependencies t packageName f.dependency)) with
  | .error e => .error e
  | .ok names =>
    .ok (if names.length ≠ 0 then
      Strs.sortUniqModifyOrd (o.sub (packageName ++ s%" sort")) names none else names)

/-- The result of `populateEnums`, `populateMessages` and `populateServices` for one
package with its dependency names, internal/reflect/reflect.go:158-209. -/
def populate (s : SortSlice) (o : Order) (packageName : Str) (dependencyNames : List Str)
    (files : List FileDesc) : Except Err Package :=
  match concatRes (o.ord [packageName, s%"enums"] (files.map fun f => .ok (getEnums s f.enums))) with
  | .error e => .error e
  | .ok enums =>
    match concatRes (o.ord [packageName, s%"messages"]
      (files.map fun f => getMessages s o [packageName, f.name] f.messages)) with
    | .error e => .error e
    | .ok messages =>
      match concatRes (o.ord [packageName, s%"services"]
        (files.map fun f => getServices s f.services)) with
      | .error e => .error e
      | .ok services =>
        .ok ⟨packageName, dependencyNames, s.run (fun a b => Str.lt a.name b.name) enums,
          s.run (fun a b => Str.lt a.name b.name) messages,
          s.run (fun a b => Str.lt a.name b.name) services⟩

/-- The dependency names of every package, internal/reflect/reflect.go:128-155. -/
def populateDependencies (o : Order) (m : FileMap) : Except Err (List (Str × List Str × List FileDesc)) :=
  match fileNameToPackageName o (o.ord [s%"table"] m) [] with
  | .error e => .error e
  | .ok t =>
    mapLoop o [s%"dependencies"] (m.map fun p =>
      match packageDependencies o t p.1 p.2 with
      | .error e => .error e
      | .ok names => .ok (p.1, names, p.2))

/-- `NewPackageSet`, internal/reflect/reflect.go:39-70 with `getPackageSet` :212-224. -/
def newPackageSet (s : SortSlice) (o : Order) (marshal : FileDesc → Except Err Str)
    (sets : List FileSet) : Except Err PackageSet :=
  if sets.length = 0 then .ok []
  else
    match collect marshal sets.flatten [] with
    | .error e => .error e
    | .ok m =>
      match populateDependencies o m with
      | .error e => .error e
      | .ok withDependencies =>
        match mapLoop o [s%"populate"]
          (withDependencies.map fun p => populate s o p.1 p.2.1 p.2.2) with
        | .error e => .error e
        | .ok packages =>
          .ok (s.run (fun a b => Str.lt a.name b.name) (o.ord [s%"packages"] packages))

end Verif.Reflect
