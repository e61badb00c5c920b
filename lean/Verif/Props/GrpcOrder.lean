import Verif.Proof.ExecOrder
import Verif.Props.Grpc
import Verif.Spec.GrpcOrder

/-!
# C86 for `grpc`
-/

namespace Verif.Props

open Verif Str Spec Exec File Descriptor Grpc

theorem findInSets_mem {path : Str} {sets : List FileSet} {info : ServiceInfo}
    (h : findInSets path sets = .ok info) :
    info.set ∈ sets ∧ servicesOf info.set path = [(info.service, info.file)] := by
  obtain ⟨before, after, rfl, _, _, hs⟩ := findInSets_ok.1 h
  exact ⟨by simp, hs⟩

theorem findInSets_found {path : Str} : ∀ {sets : List FileSet},
    (∀ set ∈ sets, (∀ file ∈ set, file.package ≠ []) ∧ (servicesOf set path).length ≤ 1) →
    (∃ set ∈ sets, servicesOf set path ≠ []) → ∃ info, findInSets path sets = .ok info
  | [], _, ⟨_, h, _⟩ => by cases h
  | set :: sets, hs, ⟨s, hm, hne⟩ => by
    obtain ⟨h1, h2⟩ := hs set (by simp)
    unfold findInSets
    cases hx : servicesOf set path with
    | nil =>
      rw [findInFiles_ok.2 ⟨h1, .inl ⟨rfl, hx⟩⟩]
      refine findInSets_found (fun x hx => hs x (by simp [hx])) ⟨s, ?_, hne⟩
      rcases List.mem_cons.1 hm with rfl | hm
      · exact absurd hx hne
      · exact hm
    | cons p l =>
      rw [hx] at h2
      have hl : l = [] := List.eq_nil_of_length_eq_zero (by simpa using h2)
      subst hl
      rw [findInFiles_ok.2 ⟨h1, .inr ⟨p, rfl, hx⟩⟩]
      exact ⟨_, rfl⟩

theorem mem_servicesOf {set : FileSet} {name : Str} {p : ServiceDesc × FileDesc}
    (h : p ∈ servicesOf set name) : p.2 ∈ set := by
  unfold servicesOf at h
  obtain ⟨file, hf, hp⟩ := List.mem_flatMap.1 (List.mem_filter.1 h).1
  obtain ⟨s, _, rfl⟩ := List.mem_map.1 hp
  exact hf

theorem servicesOf_perm {set set' : FileSet} {name : Str} (h : set'.Perm set) :
    (servicesOf set' name).Perm (servicesOf set name) :=
  (h.flatMap_right _).filter _

theorem sort_perm {set r : FileSet} {target : FileDesc} (ht : target ∈ set)
    (h : Desc.sortFileDescriptorSet set target = .ok r) : r.Perm set ∧ r.getLast? = some target := by
  obtain ⟨_, hnd, _, rfl⟩ := Proof.Desc.sort_ok_iff.1 h
  refine ⟨?_, by simp⟩
  obtain ⟨before, after, rfl⟩ := List.append_of_mem ht
  rw [C11_moves_target before after target (Proof.Desc.sort_ok_iff.1 h).1 hnd] at h
  rw [← Except.ok.inj h]
  exact (List.perm_append_comm (l₁ := before ++ after) (l₂ := [target])).trans
    (List.perm_middle (a := target) (l₁ := before) (l₂ := after)).symm

theorem source_ok {e : Env} {sets : List FileSet} {method : Str} {source : FileSet}
    (h : sourceForMethod e sets method = .ok source) :
    ∃ name, getServiceForMethod method = .ok name ∧ ∃ info, getServiceInfo sets name = .ok info ∧
      Desc.sortFileDescriptorSet info.set info.file = .ok source ∧ e.source source = .ok () := by
  unfold sourceForMethod at h
  split at h
  · cases h
  · rename_i name hn
    split at h
    · cases h
    · rename_i info hi
      split at h
      · cases h
      · rename_i set hset
        split at h
        · cases h
        · rename_i hsrc
          cases h
          exact ⟨name, hn, info, hi, hset, hsrc⟩

/-- The part of the name that is looked up. -/
def lookedUp (name : Str) : Str := if name.head? = some '.' then name.tail else name

theorem getServiceInfo_eq {sets : List FileSet} {name : Str} (h : name ≠ []) :
    getServiceInfo sets name = findInSets (lookedUp name) sets := by
  cases name with
  | nil => exact absurd rfl h
  | cons c cs =>
    unfold getServiceInfo lookedUp
    by_cases hc : c = '.'
    · subst hc; rfl
    · simp [hc]

theorem names_lookedUp {method name : Str} (h : getServiceForMethod method = .ok name) :
    NamesService method (lookedUp name) := by
  obtain ⟨rpc, rfl, _⟩ := (C51_method method name).1 h
  refine ⟨rpc, ?_⟩
  unfold lookedUp
  split
  · rename_i hd
    cases name with
    | nil => cases hd
    | cons c cs =>
      have : c = '.' := by simpa using hd
      subst this
      exact .inr rfl
  · exact .inl rfl

theorem source_alike {e : Env} {sets sets' : List FileSet} {method : Str} (hp : sets'.Perm sets)
    (hs : ∀ set ∈ sets, CallableSet e set) :
    SameResult (fun s s' => ∃ name, NamesService method name ∧ servicesOf s name ≠ [] ∧ servicesOf s' name ≠ [])
      (sourceForMethod e sets method) (sourceForMethod e sets' method) := by
  have key : ∀ (a b : List FileSet), b.Perm a → (∀ set ∈ a, CallableSet e set) → ∀ s,
      sourceForMethod e a method = .ok s → ∃ name s', NamesService method name ∧ servicesOf s name ≠ [] ∧
        servicesOf s' name ≠ [] ∧ sourceForMethod e b method = .ok s' := by
    intro a b hab ha s h
    obtain ⟨name, hn, info, hi, hsort, hsrc⟩ := source_ok h
    have hne : name ≠ [] := by rintro rfl; cases hi
    rw [getServiceInfo_eq hne] at hi
    obtain ⟨hm, hserv⟩ := findInSets_mem hi
    have hfile : info.file ∈ info.set := mem_servicesOf (p := (info.service, info.file)) (by rw [hserv]; simp)
    obtain ⟨info', hi'⟩ := findInSets_found (path := lookedUp name) (sets := b)
      (fun set hset => ⟨(ha set (hab.mem_iff.1 hset)).packages, (ha set (hab.mem_iff.1 hset)).services _⟩)
      ⟨info.set, hab.mem_iff.2 hm, by rw [hserv]; simp⟩
    obtain ⟨hm', hserv'⟩ := findInSets_mem hi'
    have hfile' : info'.file ∈ info'.set := mem_servicesOf (p := (info'.service, info'.file)) (by rw [hserv']; simp)
    have hc := ha info'.set (hab.mem_iff.1 hm')
    have hsort' := Proof.Desc.sort_ok_iff.2 ⟨hc.names, hc.distinct, ⟨info'.file, hfile', rfl⟩, rfl⟩
    obtain ⟨p1, p2⟩ := sort_perm hfile' hsort'
    obtain ⟨q1, _⟩ := sort_perm hfile hsort
    refine ⟨lookedUp name, (info'.set.filter fun f => decide (f.name ≠ info'.file.name)) ++ [info'.file],
      names_lookedUp hn, ?_, ?_, ?_⟩
    · intro h0
      have := (servicesOf_perm (name := lookedUp name) q1).length_eq
      rw [h0, hserv] at this
      simp at this
    · intro h0
      have := (servicesOf_perm (name := lookedUp name) p1).length_eq
      rw [h0, hserv'] at this
      simp at this
    · unfold sourceForMethod
      rw [hn]
      dsimp only
      rw [getServiceInfo_eq hne, hi']
      dsimp only
      rw [hsort']
      dsimp only
      rw [hc.accepted _ hfile' _ p1 p2]
  cases h1 : sourceForMethod e sets method with
  | ok s =>
    obtain ⟨name, s', hn, ha, hb, h2⟩ := key _ _ hp hs s h1
    rw [h2]
    exact ⟨name, hn, ha, hb⟩
  | error x =>
    cases h2 : sourceForMethod e sets' method with
    | error y => trivial
    | ok s' =>
      obtain ⟨_, s, _, _, _, h3⟩ := key _ _ hp.symm (fun set hset => hs set (hp.mem_iff.1 hset)) s' h2
      rw [h1] at h3
      cases h3

theorem checkResolver_ok {e : Env} : ∀ {l : List (FileSet × FileDesc)},
    checkResolver e l = .ok () ↔ ∀ p ∈ l, resolveFile e p.1 p.2 = .ok ()
  | [] => by simp [checkResolver]
  | (set, file) :: l => by
    unfold checkResolver
    cases h : resolveFile e set file with
    | error x => simp [h]
    | ok u => cases u; simp [h, checkResolver_ok]

theorem resolver_alike {e : Env} {sets sets' : List FileSet} (hp : sets'.Perm sets) :
    SameResult (fun _ _ => True) (checkResolver e (resolverFiles sets)) (checkResolver e (resolverFiles sets')) := by
  have hperm : (resolverFiles sets').Perm (resolverFiles sets) := hp.flatMap_right _
  have hiff : checkResolver e (resolverFiles sets') = .ok () ↔ checkResolver e (resolverFiles sets) = .ok () := by
    rw [checkResolver_ok, checkResolver_ok]
    exact ⟨fun h p hp' => h p (hperm.mem_iff.2 hp'), fun h p hp' => h p (hperm.mem_iff.1 hp')⟩
  cases h1 : checkResolver e (resolverFiles sets) with
  | ok u =>
    rw [hiff.2 h1]
    trivial
  | error x =>
    cases h2 : checkResolver e (resolverFiles sets') with
    | error y => trivial
    | ok u => rw [hiff.1 h2] at h1; cases h1

theorem plan_alike {e : Env} {o' : Order} {f : Grpc.Flags} {headers : GoMap Str Str} {a b c : Int}
    {sets sets' : List FileSet} (hp : sets'.Perm sets) (hs : ∀ set ∈ sets, CallableSet e set) :
    SameResult Interchangeable (plan e f headers a b c sets)
      (plan { e with order := o' } f headers a b c sets') := by
  unfold plan
  have h1 := source_alike (method := f.method) hp hs
  have e1 : sourceForMethod { e with order := o' } sets' f.method = sourceForMethod e sets' f.method := rfl
  rw [e1]
  cases hx : sourceForMethod e sets f.method with
  | error x =>
    cases hy : sourceForMethod e sets' f.method with
    | error y => trivial
    | ok y => rw [hx, hy] at h1; exact h1.elim
  | ok s =>
    cases hy : sourceForMethod e sets' f.method with
    | error y => rw [hx, hy] at h1; exact h1.elim
    | ok s' =>
      rw [hx, hy] at h1
      dsimp only
      have h2 := resolver_alike (e := e) hp
      have e2 : ∀ l, checkResolver { e with order := o' } l = checkResolver e l := by
        intro l
        induction l with
        | nil => rfl
        | cons p l ih =>
          obtain ⟨set, file⟩ := p
          unfold checkResolver
          rw [ih]
          rfl
      rw [e2]
      cases hx2 : checkResolver e (resolverFiles sets) with
      | error x =>
        cases hy2 : checkResolver e (resolverFiles sets') with
        | error y => trivial
        | ok y => rw [hx2, hy2] at h2; exact h2.elim
      | ok u =>
        cases hy2 : checkResolver e (resolverFiles sets') with
        | error y => rw [hx2, hy2] at h2; exact h2.elim
        | ok y =>
          dsimp only
          cases getNetworkAddress f.address with
          | error x => trivial
          | ok na =>
            obtain ⟨n, ad⟩ := na
            dsimp only
            have hh : (List.map (fun kv : Str × Str => kv.1 ++ s%":" ++ kv.2) (o'.ord [s%"newGRPCHandler"] headers)).Perm
                (List.map (fun kv : Str × Str => kv.1 ++ s%":" ++ kv.2) (e.order.ord [s%"newGRPCHandler"] headers)) :=
              List.Perm.map _ ((o'.perm _ _).trans (e.order.perm _ _).symm)
            cases f.tls with
            | false => exact ⟨rfl, hh, h1⟩
            | true =>
              simp only [if_true]
              cases e.credentials (f.insecure, f.cacert, f.cert, f.key, f.serverName) with
              | error x => trivial
              | ok u => exact ⟨rfl, hh, h1⟩

/-- Without a plan there is no call. -/
theorem grpcCmd_refused {h : Exec.Host} (hp : Prints h) {e : Grpc.Env} {args : List Str} {f : Grpc.Flags}
    {w : World} {m : Meta} {sets : List FileSet} (hf : FlagsAccepted f) (hk : ErrorFormatKnown h)
    (hm : metaOf h (fileOrDir args) = .ok m)
    (hc : h.compile { doFileDescriptorSet := true } w.disk m.protoSet = .ok ([], sets))
    (hplan : ∀ headers ct nt kt, ∃ err, plan e f headers ct nt kt sets = .error err) :
    ∃ err, grpcCmd h e args f w = (w, .error (.other err)) := by
  have lift_ok : ∀ {α β : Type} {x : Except Err α} {g : α → Run β} {a : α}, x = .ok a →
      Run.bind (Run.lift x) g w = g a w := by
    intro α β x g a hx; subst hx; rfl
  unfold grpcCmd
  rw [(C51_flags f).2 hf]
  dsimp only
  cases hh : parseHeaders f.headers [] with
  | error x => exact ⟨x, rfl⟩
  | ok headers =>
  rw [lift_ok rfl]
  cases hct : parseTimeout e f.callTimeout with
  | error x => exact ⟨x, rfl⟩
  | ok ct =>
  rw [lift_ok rfl]
  cases hnt : parseTimeout e f.connectTimeout with
  | error x => exact ⟨x, rfl⟩
  | ok nt =>
  rw [lift_ok rfl]
  cases hkt : parseTimeout e f.keepaliveTime with
  | error x => exact ⟨x, rfl⟩
  | ok kt =>
  rw [lift_ok rfl]
  unfold getMeta
  rw [lift_ok hm, bind_of_ok (w1 := w) ((compile_ok hp).2 ⟨hk, hc, rfl⟩)]
  by_cases hl : sets.length = 0
  · rw [if_pos hl]; exact ⟨_, rfl⟩
  · rw [if_neg hl]
    obtain ⟨err, herr⟩ := hplan headers ct nt kt
    rw [herr]
    exact ⟨err, rfl⟩

/-- C77: **there is a call only if the library accepts every file**, given last in an order of the files it was compiled
with. Otherwise nothing is printed and the command fails. -/
theorem C77_unknown {h : Exec.Host} (hp : Prints h) {e : Grpc.Env} {args : List Str} {f : Grpc.Flags}
    {w : World} {m : Meta} {sets : List FileSet} (hf : FlagsAccepted f) (hk : ErrorFormatKnown h)
    (hm : metaOf h (fileOrDir args) = .ok m)
    (hc : h.compile { doFileDescriptorSet := true } w.disk m.protoSet = .ok ([], sets))
    (set : FileSet) (hset : set ∈ sets) (file : FileDesc) (hfile : file ∈ set)
    (hno : ∀ given : FileSet, given.Perm set → given.getLast? = some file → e.createFile given ≠ .ok ()) :
    ∃ err, grpcCmd h e args f w = (w, .error (.other err)) := by
  refine grpcCmd_refused hp hf hk hm hc fun headers ct nt kt => ?_
  unfold plan
  split
  · exact ⟨_, rfl⟩
  · cases hr : checkResolver e (resolverFiles sets) with
    | error x => exact ⟨_, rfl⟩
    | ok u =>
      have hmem : (set, file) ∈ resolverFiles sets :=
        List.mem_flatMap.2 ⟨set, hset, List.mem_map.2 ⟨file, hfile, rfl⟩⟩
      have hone := checkResolver_ok.1 hr _ hmem
      unfold resolveFile at hone
      split at hone
      · cases hone
      · rename_i given hgiven
        obtain ⟨h1, h2⟩ := sort_perm hfile hgiven
        exact absurd hone (hno given h1 h2)

/-- C77: **there is a call over TLS only if the certificates are accepted**, all that the flags give. -/
theorem C77_credentials {h : Exec.Host} (hp : Prints h) {e : Grpc.Env} {args : List Str} {f : Grpc.Flags}
    {w : World} {m : Meta} {sets : List FileSet} (hf : FlagsAccepted f) (hk : ErrorFormatKnown h)
    (hm : metaOf h (fileOrDir args) = .ok m)
    (hc : h.compile { doFileDescriptorSet := true } w.disk m.protoSet = .ok ([], sets)) (ht : f.tls = true)
    (hno : e.credentials (f.insecure, f.cacert, f.cert, f.key, f.serverName) ≠ .ok ()) :
    ∃ err, grpcCmd h e args f w = (w, .error (.other err)) := by
  refine grpcCmd_refused hp hf hk hm hc fun headers ct nt kt => ?_
  unfold plan
  split
  · exact ⟨_, rfl⟩
  · split
    · exact ⟨_, rfl⟩
    · split
      · exact ⟨_, rfl⟩
      · rw [ht]
        simp only [if_true]
        cases hcr : e.credentials (f.insecure, f.cacert, f.cert, f.key, f.serverName) with
        | error x => exact ⟨_, rfl⟩
        | ok u => exact absurd hcr hno

/-- C77: **there is a call only if the library accepts the files of the service**, the one of the service last. -/
theorem C77_source {h : Exec.Host} (hp : Prints h) {e : Grpc.Env} {args : List Str} {f : Grpc.Flags}
    {w : World} {m : Meta} {sets : List FileSet} (hf : FlagsAccepted f) (hk : ErrorFormatKnown h)
    (hm : metaOf h (fileOrDir args) = .ok m)
    (hc : h.compile { doFileDescriptorSet := true } w.disk m.protoSet = .ok ([], sets))
    (hno : ∀ name, NamesService f.method name → ∀ set ∈ sets, ∀ service file, (service, file) ∈ servicesOf set name →
      ∀ given : FileSet, given.Perm set → given.getLast? = some file → e.source given ≠ .ok ()) :
    ∃ err, grpcCmd h e args f w = (w, .error (.other err)) := by
  refine grpcCmd_refused hp hf hk hm hc fun headers ct nt kt => ?_
  unfold plan
  cases hs : sourceForMethod e sets f.method with
  | error x => exact ⟨_, rfl⟩
  | ok source =>
    obtain ⟨name, hn, info, hi, hsort, hsrc⟩ := source_ok hs
    have hne : name ≠ [] := by rintro rfl; cases hi
    rw [getServiceInfo_eq hne] at hi
    obtain ⟨hmem, hserv⟩ := findInSets_mem hi
    have hin : (info.service, info.file) ∈ servicesOf info.set (lookedUp name) := by rw [hserv]; simp
    obtain ⟨p1, p2⟩ := sort_perm (mem_servicesOf hin) hsort
    exact absurd hsrc (hno _ (names_lookedUp hn) _ hmem _ _ hin _ p1 p2)

/-- A library that does not accept the file of `GrpcExample`. -/
example : ∃ err, grpcCmd GrpcExample.grpcHost { GrpcExample.env with createFile := fun _ => .error s%"no" } [s%"a"]
    GrpcExample.flags Exec.Sample.world = (Exec.Sample.world, .error (.other err)) :=
  C77_unknown (fun _ _ => rfl) (by rw [← C51_flags]; decide) ⟨_, rfl⟩ (m := Exec.Sample.dir) rfl rfl _ (.head _) _ (.head _)
    (by intro _ _ _ h; cases h)

/-- One that refuses the files of the service. -/
example : ∃ err, grpcCmd GrpcExample.grpcHost { GrpcExample.env with source := fun _ => .error s%"no" } [s%"a"]
    GrpcExample.flags Exec.Sample.world = (Exec.Sample.world, .error (.other err)) :=
  C77_source (fun _ _ => rfl) (by rw [← C51_flags]; decide) ⟨_, rfl⟩ (m := Exec.Sample.dir) rfl rfl
    (by intro _ _ _ _ _ _ _ _ _ _ h; cases h)

/-- A certificate that is missing. -/
example : ∃ err, grpcCmd GrpcExample.grpcHost { GrpcExample.env with credentials := fun _ => .error s%"no" } [s%"a"]
    { GrpcExample.flags with tls := true, cacert := s%"ca.pem" } Exec.Sample.world =
      (Exec.Sample.world, .error (.other err)) :=
  C77_credentials (fun _ _ => rfl) (by rw [← C51_flags]; decide) ⟨_, rfl⟩ (m := Exec.Sample.dir) rfl rfl rfl
    (by intro h; cases h)

/-- C86: `grpc` prints the same and ends alike if all files have packages and the server answers
calls alike, whichever of the descriptor sets with the service is used and whatever the order of
the headers. -/
theorem C86_grpc_partial (h h' : Exec.Host) (r : Reordered h h') (e : Env) (o' : Order) (args : List Str)
    (f : Grpc.Flags)
    (hs : ∀ flags disk ps x, h.compile flags disk ps = .ok x → ∀ set ∈ x.2, CallableSet e set)
    (hrpc : ∀ c c', Interchangeable c c' → e.rpc c' = e.rpc c) :
    SameRun (grpcCmd h e args f) (grpcCmd h' { e with order := o' } args f) := by
  unfold grpcCmd
  split
  · exact runAlike_fail _
  refine runAlike_bind (runAlike_refl _) fun headers _ hh => ?_
  subst hh
  refine runAlike_bind (runAlike_refl _) fun a _ ha => ?_
  subst ha
  refine runAlike_bind (runAlike_refl _) fun b _ hb => ?_
  subst hb
  refine runAlike_bind (runAlike_refl _) fun c _ hc => ?_
  subst hc
  refine runAlike_bind (r.getMeta args) fun m m' hm => ?_
  refine runAlike_bind (r.compile hm) fun sets sets' hsets => ?_
  obtain ⟨hperm, flags, disk, ps, x, hx, rfl⟩ := hsets
  rw [hperm.length_eq]
  split
  · exact runAlike_fail _
  refine runAlike_bind (runAlike_lift (plan_alike hperm (hs _ _ _ _ hx))) fun call call' hcall => ?_
  have : invoke { e with order := o' } f call' = invoke e f call := by
    have he : ({ e with order := o' } : Env).rpc call' = e.rpc call := hrpc call call' hcall
    unfold invoke
    rw [he]
  rw [this]
  exact sameRun_refl _

/-- For `grpc`, C86 is false: of two directories, one with a file without package and one with the
service, the first one to be looked at decides whether there is a call. -/
theorem C86_grpc_not : ∃ (h h' : Exec.Host) (_ : Reordered h h') (e : Env) (args : List Str) (f : Grpc.Flags)
    (w : World), (∀ c c', e.rpc c' = e.rpc c) ∧ (grpcCmd h e args f w).2 = .ok () ∧
      ∃ err, (grpcCmd h' e args f w).2 = .error (.other err) := by
  let sets : List FileSet := [[grpcFile s%"b" s%"p" s%"B"], [grpcFile s%"a" [] s%"A"]]
  refine ⟨{ Exec.Sample.host with compile := fun _ _ _ => .ok ([], sets) },
    { Exec.Sample.host with compile := fun _ _ _ => .ok ([], sets.reverse) }, ⟨rfl, ?_, ?_⟩,
    GrpcExample.env, [s%"a"], GrpcExample.flags, Exec.Sample.world, fun _ _ => rfl, rfl, _, rfl⟩
  · intro w d
    unfold Exec.Sample.host
    dsimp only
    split
    · exact ⟨rfl, rfl, rfl, .refl _⟩
    · trivial
  · intro _ _ _ _ _
    exact ⟨rfl, List.reverse_perm _⟩

/-- Two directories whose sets both have the service: the set of the call depends on the order, what
is printed does not. -/
example : let set := [grpcFile s%"b" s%"p" s%"B"]
    let set' := [grpcFile s%"b" s%"p" s%"B", grpcFile s%"a" s%"q" s%"A"]
    CallableSet GrpcExample.env set ∧ CallableSet GrpcExample.env set' ∧
    ∃ c c', plan GrpcExample.env GrpcExample.flags [] 0 0 0 [set, set'] = .ok c ∧
      plan GrpcExample.env GrpcExample.flags [] 0 0 0 [set', set] = .ok c' ∧ c.source.length = 1 ∧ c'.source.length = 2 := by
  have one : ∀ (n p s name : Str), (servicesOf [grpcFile n p s] name).length ≤ 1 := by
    intro n p s name
    refine Nat.le_trans (List.length_filter_le _ _) ?_
    simp [grpcFile]
  refine ⟨⟨by decide, by decide, by decide, one _ _ _, fun _ _ _ _ _ => rfl⟩,
    ⟨by decide, by decide, by decide, ?_, fun _ _ _ _ _ => rfl⟩, _, _, rfl, rfl, rfl, rfl⟩
  intro name
  rw [servicesOf_cons]
  by_cases hn : s%"p" ++ s%"." ++ s%"B" = name
  · subst hn
    decide
  · have : (named (grpcFile s%"b" s%"p" s%"B") name) = [] := by
      unfold named grpcFile
      rw [List.filter_cons_of_neg (by simpa using hn), List.filter_nil]
    rw [this]
    exact one _ _ _ _

end Verif.Props
