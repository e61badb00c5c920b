import Verif.Proof.Grpc
import Verif.Props.Desc
import Verif.Spec.ExecSample

/-!
# The grpc command
-/

namespace Verif.Props

open Verif Str Descriptor Exec Spec Grpc

/-! ## C51 -/

/-- C51: the flags are accepted exactly when they make sense together. -/
theorem C51_flags (f : Grpc.Flags) : checkFlags f = none ↔ FlagsAccepted f := by
  unfold checkFlags
  constructor
  · intro h
    split at h; · cases h
    rename_i h1
    split at h; · cases h
    rename_i h2
    split at h; · cases h
    rename_i h3
    split at h; · cases h
    rename_i h4
    have hin : (f.data ≠ [] ∧ f.stdin = false) ∨ (f.data = [] ∧ f.stdin = true) := by
      by_cases hd : f.data = [] <;> cases hs : f.stdin <;> simp_all
    cases ht : f.tls with
    | true =>
      rw [ht, if_pos rfl] at h
      split at h; · cases h
      rename_i h5
      split at h; · cases h
      rename_i h6
      refine ⟨h1, h2, hin, (fun e => by rw [ht] at e; cases e), ?_, ?_⟩
      · intro hi
        rw [not_and] at h5
        have := h5 hi
        simp only [not_or, ne_eq, Decidable.not_not] at this
        exact this
      · by_cases hc : f.cert = [] <;> by_cases hk : f.key = [] <;> simp_all
    | false =>
      rw [ht, if_neg (by decide)] at h
      split at h; · cases h
      rename_i h5
      simp only [not_or, ne_eq, Decidable.not_not, Bool.not_eq_true] at h5
      obtain ⟨a, b, c, d, e⟩ := h5
      exact ⟨h1, h2, hin, fun _ => ⟨a, b, c, d, e⟩, (fun e => by rw [a] at e; cases e), by simp [c, d]⟩
  · rintro ⟨h1, h2, hin, hn, hi, hp⟩
    rw [if_neg h1, if_neg h2, if_neg (by rcases hin with ⟨a, b⟩ | ⟨a, b⟩ <;> simp [a, b]),
      if_neg (by rcases hin with ⟨a, b⟩ | ⟨a, b⟩ <;> simp [a, b])]
    cases ht : f.tls with
    | true =>
      rw [if_pos rfl, if_neg, if_neg]
      · by_cases hc : f.cert = [] <;> by_cases hk : f.key = [] <;> simp_all
      · rintro ⟨a, b⟩
        obtain ⟨c1, c2, c3, c4⟩ := hi a
        simp [c1, c2, c3, c4] at b
    | false =>
      obtain ⟨c0, c1, c2, c3, c4⟩ := hn ht
      simp [c0, c1, c2, c3, c4]

/-- C51: other flags are an error with exit code 255, and nothing is compiled, called or
printed. -/
theorem C51_refused (h : Exec.Host) (e : Grpc.Env) (args : List Str) (f : Grpc.Flags) (w : World)
    (hf : ¬ FlagsAccepted f) :
    ∃ message, message ≠ [] ∧ grpcCmd h e args f w = (w, .error (.exit 255 message)) := by
  unfold grpcCmd
  cases hc : checkFlags f with
  | none => exact absurd ((C51_flags f).1 hc) hf
  | some message =>
    refine ⟨message, ?_, rfl⟩
    unfold checkFlags at hc
    rintro rfl
    repeat' split at hc
    all_goals first
      | cases hc
      | (injection hc with hc; cases hc)

/-- Non-vacuity for `C51_flags`: a call with a client certificate. -/
example : FlagsAccepted (({ address := s%"0.0.0.0:80", method := s%"a.B/C" } : Grpc.Flags)
    |> fun f => { f with tls := true, stdin := true, cert := s%"c.pem", key := s%"k.pem" }) := by
  rw [← C51_flags]; decide

/-- C51: the network and address. -/
theorem C51_address (text network address : Str) :
    getNetworkAddress text = .ok (network, address) ↔ AddressOf text network address := by
  unfold getNetworkAddress AddressOf
  cases hc : cut s%"://" text with
  | none =>
    have hno := (cut_none (by decide)).1 hc
    constructor
    · intro h
      injection h with h
      injection h with h1 h2
      exact Or.inl ⟨hno, h1.symm, h2.symm⟩
    · rintro (⟨_, rfl, rfl⟩ | ⟨h, _⟩)
      · rfl
      · exact absurd h.1 (hno _ _)
  | some p =>
    obtain ⟨n, a⟩ := p
    have hcut := (cut_some (by decide)).1 hc
    dsimp only
    constructor
    · intro h
      split at h
      · rename_i hn
        injection h with h
        injection h with h1 h2
        subst h1; subst h2
        exact Or.inr ⟨hcut, hn⟩
      · cases h
    · rintro (⟨h, _⟩ | ⟨h, hn⟩)
      · exact absurd hcut.1 (h _ _)
      · obtain ⟨rfl, rfl⟩ := firstCut_unique hcut h
        rw [if_pos hn]

/-- C51: a network other than tcp and unix is refused. -/
theorem C51_other_network (text network address : Str) (h : FirstCut s%"://" text network address)
    (h1 : network ≠ s%"tcp") (h2 : network ≠ s%"unix") :
    ∃ e, getNetworkAddress text = .error e := by
  unfold getNetworkAddress
  rw [(cut_some (by decide)).2 h]
  dsimp only
  rw [if_neg (by simp [h1, h2])]
  exact ⟨_, rfl⟩

/-- Non-vacuity for C51: the three kinds of addresses. -/
example : getNetworkAddress s%"unix:///a://b" = .ok (s%"unix", s%"/a://b") ∧
    getNetworkAddress s%"localhost:80" = .ok (s%"tcp", s%"localhost:80") ∧
    getNetworkAddress s%"http://a" =
      .error s%"invalid network, only tcp or unix allowed: http" := ⟨rfl, rfl, rfl⟩

/-- C51: the service of a method is what is before its only slash. -/
theorem C51_method (method service : Str) :
    getServiceForMethod method = .ok service ↔
      ∃ rpc, method = service ++ s%"/" ++ rpc ∧ '/' ∉ service ∧ '/' ∉ rpc := by
  unfold getServiceForMethod
  constructor
  · intro h
    cases hs : splitChar '/' method with
    | nil => exact absurd hs (splitChar_ne_nil _ _)
    | cons a l =>
      rw [hs] at h
      match l, hs, h with
      | [b], hs, h =>
        injection h with h
        subst h
        refine ⟨b, ?_, splitChar_no_sep (s := method) (by rw [hs]; simp),
          splitChar_no_sep (s := method) (by rw [hs]; simp)⟩
        rw [← join_splitChar '/' method, hs]
        rfl
  · rintro ⟨rpc, rfl, h1, h2⟩
    rw [List.append_assoc, show s%"/" ++ rpc = '/' :: rpc from rfl, splitChar_append '/' h1,
      splitChar_of_not_mem h2]

/-- C51: the service that is found is the only one with the name in the first set that has one; a
leading dot of the name is dropped. -/
theorem C51_service (sets : List FileSet) (path : Str) (info : ServiceInfo) :
    getServiceInfo sets path = .ok info ↔
      ∃ name, path ≠ [] ∧ (path = name ∧ name.head? ≠ some '.' ∨ path = s%"." ++ name) ∧
        ServiceFor sets name info := by
  unfold getServiceInfo
  cases path with
  | nil =>
    constructor
    · intro h; cases h
    · rintro ⟨_, h, _⟩; exact absurd rfl h
  | cons c cs =>
    dsimp only
    by_cases hc : c = '.'
    · subst hc
      rw [if_pos rfl, findInSets_ok]
      constructor
      · intro h; exact ⟨cs, by simp, Or.inr rfl, h⟩
      · rintro ⟨name, _, ⟨rfl, h⟩ | h, hs⟩
        · simp at h
        · simp only [List.cons_append, List.nil_append, List.cons.injEq, true_and] at h
          rw [h]; exact hs
    · rw [if_neg hc, findInSets_ok]
      constructor
      · intro h; exact ⟨c :: cs, by simp, Or.inl ⟨rfl, by simpa using hc⟩, h⟩
      · rintro ⟨name, _, ⟨rfl, _⟩ | h, hs⟩
        · exact hs
        · simp only [List.cons_append, List.cons.injEq] at h
          exact absurd h.1 hc

/-- C51: headers are `key:value`; of several with the same key the last one counts. -/
theorem C51_headers (headers : List Str) :
    ((∃ e, parseHeaders headers [] = .error e) ↔ ∃ h ∈ headers, NotIn s%":" h) ∧
    ∀ r, parseHeaders headers [] = .ok r →
      (r.map (·.1)).Nodup ∧ ∀ k v, (k, v) ∈ r ↔ LastHeader headers k v := by
  refine ⟨parseHeaders_fails, fun r h => ?_⟩
  obtain ⟨_, h2, h3⟩ := parseHeaders_ok (by simp) h
  refine ⟨h2, fun k v => ?_⟩
  rw [h3]
  simp

/-- A file with a service. -/
def grpcFile (name package service : Str) : FileDesc :=
  ⟨name, package, [], [], [], [⟨service, []⟩], []⟩

/-- Non-vacuity for `C51_service`: the second set has the service. -/
example : ServiceFor [[grpcFile s%"a" s%"p" s%"A"], [grpcFile s%"b" s%"p.q" s%"B"]] s%"p.q.B"
    ⟨⟨s%"B", []⟩, grpcFile s%"b" s%"p.q" s%"B", [grpcFile s%"b" s%"p.q" s%"B"]⟩ := by
  rw [← findInSets_ok]
  rfl

/-- A stronger claim than C51, that every such service is found, is false: a file
without package keeps a service from being found, although it has nothing to do with the
service. -/
theorem C51_not_package : ∃ (sets : List FileSet) (name : Str) (s : ServiceDesc) (file : FileDesc),
    sets.flatMap (servicesOf · name) = [(s, file)] ∧ name ≠ [] ∧ name.head? ≠ some '.' ∧
    ∃ e, getServiceInfo sets name = .error e :=
  ⟨[[grpcFile s%"a" [] s%"A", grpcFile s%"b" s%"p" s%"B"]], s%"p.B", ⟨s%"B", []⟩,
    grpcFile s%"b" s%"p" s%"B", rfl, by decide, by decide, _, rfl⟩

/-! ## C77 -/

/-- The text of an event is what the specification says. -/
theorem C77_events (details : Bool) (e : Event) : printEvent details e = eventText details e := by
  have hkey : ∀ (key s : Str), key ≠ [] →
      line (marshalSanitize true s key) = objectLine (some key) s := by
    intro key s hk
    unfold marshalSanitize objectLine line
    by_cases h : s = s%"{}"
    · subst h; simp
    · by_cases h0 : s = []
      · subst h0; simp
      · simp [h, h0, hk]
  have hno : ∀ (s : Str), line (marshalSanitize false s []) = objectLine none s := by
    intro s
    unfold marshalSanitize objectLine line
    by_cases h : s = s%"{}"
    · subst h; simp
    · by_cases h0 : s = []
      · subst h0; simp
      · simp [h, h0]
  cases e with
  | headers md =>
    obtain ⟨b, j⟩ := md
    cases details <;> cases b <;> cases j <;> simp [printEvent, eventText, printMetadata, hkey]
  | response m =>
    cases details <;> cases m with
    | none => rfl
    | some m => cases m <;> simp [printEvent, eventText, printProtoMessage, hkey, hno]
  | trailers err status md =>
    obtain ⟨b, j⟩ := md
    cases details with
    | false => rfl
    | true =>
      have h1 : printProtoMessage true status s%"status" =
          (match status with
            | some (.ok json) => objectLine (some s%"status") json
            | _ => []) := by
        cases status with
        | none => rfl
        | some m => cases m <;> simp [printProtoMessage, hkey]
      have h2 : printMetadata true ⟨b, j⟩ s%"trailers" =
          (match (⟨b, j⟩ : Metadata) with
            | ⟨false, .ok json⟩ => objectLine (some s%"trailers") json
            | _ => []) := by
        cases b <;> cases j <;> simp [printMetadata, hkey]
      simp only [printEvent, eventText, if_true]
      rw [h1, h2]
      congr 1 <;> split <;> rfl

theorem eventsErr_eq (events : List Event) (err : Option Err) :
    eventsErr events err = none ↔
      err = none ∧ ∀ e s md, Event.trailers (some e) s md ∉ events := by
  induction events generalizing err with
  | nil => simp [eventsErr]
  | cons ev events ih =>
    cases ev with
    | headers md => simp [eventsErr, ih]
    | response m => simp [eventsErr, ih]
    | trailers x s md =>
      cases x with
      | none => simp [eventsErr, ih]
      | some e =>
        rw [eventsErr, ih]
        constructor
        · rintro ⟨h, _⟩; cases h
        · rintro ⟨_, h⟩; exact absurd (List.mem_cons_self ..) (h e s md)

theorem eventsErr_mem {events : List Event} {err : Err} (h : eventsErr events none = some err) :
    ∃ s md, Event.trailers (some err) s md ∈ events := by
  have : ∀ (events : List Event) (o : Option Err), eventsErr events o = some err →
      o = some err ∨ ∃ s md, Event.trailers (some err) s md ∈ events := by
    intro events
    induction events with
    | nil => intro o h; exact Or.inl h
    | cons ev events ih =>
      intro o h
      cases ev with
      | headers md =>
        rcases ih o h with h | ⟨s, md, h⟩
        · exact Or.inl h
        · exact Or.inr ⟨s, md, List.mem_cons_of_mem _ h⟩
      | response m =>
        rcases ih o h with h | ⟨s, md, h⟩
        · exact Or.inl h
        · exact Or.inr ⟨s, md, List.mem_cons_of_mem _ h⟩
      | trailers x s md =>
        cases x with
        | none =>
          rcases ih o h with h | ⟨s, md, h⟩
          · exact Or.inl h
          · exact Or.inr ⟨s, md, List.mem_cons_of_mem _ h⟩
        | some e =>
          rcases ih _ h with h | ⟨s, md, h⟩
          · injection h with h
            subst h
            exact Or.inr ⟨s, md, List.mem_cons_self ..⟩
          · exact Or.inr ⟨s, md, List.mem_cons_of_mem _ h⟩
  rcases this events none h with h | h
  · cases h
  · exact h

theorem plan_callFor {e : Grpc.Env} {f : Grpc.Flags} {headers : GoMap Str Str} {a b c : Int}
    {sets : List FileSet} {call : Call} (hh : parseHeaders f.headers [] = .ok headers)
    (ha : parseTimeout e f.callTimeout = .ok a) (hb : parseTimeout e f.connectTimeout = .ok b)
    (hc : parseTimeout e f.keepaliveTime = .ok c) (h : plan e f headers a b c sets = .ok call) :
    CallFor e.parseDuration f sets call := by
  have hd : ∀ {t d}, parseTimeout e t = .ok d → Duration e.parseDuration t d := by
    intro t d h
    unfold parseTimeout at h
    split at h
    · rename_i ht
      injection h with h
      exact Or.inl ⟨ht, h.symm⟩
    · rename_i ht
      exact Or.inr ⟨ht, h⟩
  replace ha := hd ha
  replace hb := hd hb
  replace hc := hd hc
  unfold plan at h
  cases hs : sourceForMethod e sets f.method with
  | error x => rw [hs] at h; cases h
  | ok source =>
    rw [hs] at h
    dsimp only at h
    cases hr : checkResolver e (resolverFiles sets) with
    | error x => rw [hr] at h; cases h
    | ok u =>
      rw [hr] at h
      dsimp only at h
      cases had : getNetworkAddress f.address with
      | error x => rw [had] at h; cases h
      | ok p =>
        obtain ⟨network, address⟩ := p
        rw [had] at h
        dsimp only at h
        split at h
        · cases h
        · injection h with h
          subst h
          obtain ⟨hn, hm⟩ := (C51_headers f.headers).2 headers hh
          refine ⟨(C51_address _ _ _).1 had, rfl, ⟨?_, ?_⟩, rfl, rfl, ⟨a, ha, rfl⟩, ⟨b, hb, rfl⟩, ⟨c, hc, rfl⟩, ?_⟩
          · have hnd : (headers.map fun kv => kv.1 ++ s%":" ++ kv.2).Nodup := by
              have hh2 : ∀ kv ∈ headers, FirstCut s%":" (kv.1 ++ s%":" ++ kv.2) kv.1 kv.2 := by
                intro kv hkv
                obtain ⟨bf, hd, af, _, hcut, _⟩ := (hm kv.1 kv.2).1 hkv
                rw [← hcut.1]
                exact hcut
              have hinj : ∀ x ∈ headers, ∀ y ∈ headers,
                  x.1 ++ s%":" ++ x.2 = y.1 ++ s%":" ++ y.2 → x = y := by
                intro x hx y hy exy
                have h1 := hh2 x hx
                rw [exy] at h1
                obtain ⟨e1, e2⟩ := firstCut_unique h1 (hh2 y hy)
                exact Prod.ext e1 e2
              have hnd' : headers.Nodup := by
                rw [List.Nodup, List.pairwise_map] at hn
                exact hn.imp fun hab e => hab (by rw [e])
              rw [List.Nodup, List.pairwise_map]
              exact hnd'.imp_of_mem fun hx hy hxy e => hxy (hinj _ hx _ hy e)
            exact ((e.order.perm [s%"newGRPCHandler"] headers).map _).nodup_iff.2 hnd
          · intro x
            rw [List.mem_map]
            constructor
            · rintro ⟨kv, hkv, rfl⟩
              have := (e.order.perm [s%"newGRPCHandler"] headers).mem_iff.1 hkv
              exact ⟨kv.1, kv.2, (hm _ _).1 this, rfl⟩
            · rintro ⟨k, v, hl, rfl⟩
              exact ⟨(k, v), (e.order.perm [s%"newGRPCHandler"] headers).mem_iff.2 ((hm _ _).2 hl), rfl⟩
          · unfold sourceForMethod at hs
            cases hg : getServiceForMethod f.method with
            | error x => rw [hg] at hs; cases hs
            | ok path =>
              rw [hg] at hs
              dsimp only at hs
              cases hi : getServiceInfo sets path with
              | error x => rw [hi] at hs; cases hs
              | ok info =>
                rw [hi] at hs
                dsimp only at hs
                cases ho : Desc.sortFileDescriptorSet info.set info.file with
                | error x => rw [ho] at hs; cases hs
                | ok set =>
                  rw [ho] at hs
                  dsimp only at hs
                  cases hso : e.source set with
                  | error x => rw [hso] at hs; cases hs
                  | ok u =>
                    rw [hso] at hs
                    injection hs with hs
                    subst hs
                    obtain ⟨rpc, h1, h2, h3⟩ := (C51_method _ _).1 hg
                    obtain ⟨name, _, h4, h5⟩ := (C51_service _ _ _).1 hi
                    have hmem : info.file ∈ info.set := by
                      obtain ⟨_, _, _, _, _, h6⟩ := h5
                      have : (info.service, info.file) ∈ servicesOf info.set name := by rw [h6]; simp
                      have := (List.mem_filter.1 this).1
                      obtain ⟨file, hf, hx⟩ := List.mem_flatMap.1 this
                      obtain ⟨s, _, e⟩ := List.mem_map.1 hx
                      injection e with e1 e2
                      rw [← e2]; exact hf
                    obtain ⟨hne, hnd, _, _⟩ := Proof.Desc.sort_ok_iff.1 ho
                    obtain ⟨l1, l2, hsplit⟩ := List.append_of_mem hmem
                    rw [hsplit] at ho hne hnd
                    rw [C11_moves_target l1 l2 info.file hne hnd] at ho
                    injection ho with ho
                    subst ho
                    refine ⟨path, name, info, rpc, h1, h2, h3, h4, h5, ?_, ?_⟩
                    · rw [hsplit, List.append_assoc]
                      exact List.Perm.append_left _ (List.perm_append_comm)
                    · simp

/-- C77: no file is changed. -/
theorem C77_files (h : Exec.Host) (e : Grpc.Env) (args : List Str) (f : Grpc.Flags) (w : World) :
    (grpcCmd h e args f w).1.disk = w.disk ∧ (grpcCmd h e args f w).1.writes = w.writes := by
  have : Quiet (grpcCmd h e args f) := by
    unfold grpcCmd
    cases checkFlags f with
    | some message => exact quiet_exit _
    | none =>
      refine quiet_bind (quiet_lift _) fun _ => quiet_bind (quiet_lift _) fun _ =>
        quiet_bind (quiet_lift _) fun _ => quiet_bind (quiet_lift _) fun _ =>
        quiet_bind (quiet_getMeta _ _) fun _ => quiet_bind (quiet_compile _ _ _ _) fun sets => ?_
      split
      · exact quiet_fail _
      · refine quiet_bind (quiet_lift _) fun call w => ?_
        unfold invoke
        rcases e.rpc call with ⟨events, _ | err⟩
        · dsimp only
          cases eventsErr events none <;> exact ⟨rfl, rfl⟩
        · exact ⟨rfl, rfl⟩
  exact this w

/-- C77: when the flags are accepted and the files compile, then either no call is made, which is
an error and prints nothing, or one call is made. It is the one the flags describe. What is
received is printed in order, also if the call fails, and the command ends well exactly if the call
did and its status was OK. -/
theorem C77_result {h : Exec.Host} (hp : Prints h) {e : Grpc.Env} {args : List Str} {f : Grpc.Flags}
    {w : World} {m : Meta} {sets : List FileSet} (hf : FlagsAccepted f) (hk : ErrorFormatKnown h)
    (hm : metaOf h (fileOrDir args) = .ok m)
    (hc : h.compile { doFileDescriptorSet := true } w.disk m.protoSet = .ok ([], sets)) :
    (∃ err, grpcCmd h e args f w = (w, .error (.other err))) ∨
    ∃ call, CallFor e.parseDuration f sets call ∧
      (grpcCmd h e args f w).1 = { w with out := w.out ++ (e.rpc call).1.flatMap (eventText f.details) } ∧
      (((grpcCmd h e args f w).2 = .ok () ∧ (e.rpc call).2 = none ∧
          ∀ err s md, Event.trailers (some err) s md ∉ (e.rpc call).1) ∨
        ∃ err, (grpcCmd h e args f w).2 = .error (.other err) ∧
          ((e.rpc call).2 = some err ∨
            (e.rpc call).2 = none ∧ ∃ s md, Event.trailers (some err) s md ∈ (e.rpc call).1)) := by
  have lift_ok : ∀ {α β : Type} {x : Except Err α} {g : α → Run β} {a : α}, x = .ok a →
      Run.bind (Run.lift x) g w = g a w := by
    intro α β x g a hx; subst hx; rfl
  have lift_err : ∀ {α β : Type} {x : Except Err α} {g : α → Run β} {a : Err}, x = .error a →
      Run.bind (Run.lift x) g w = (w, .error (.other a)) := by
    intro α β x g a hx; subst hx; rfl
  unfold grpcCmd
  rw [(C51_flags f).2 hf]
  dsimp only
  cases hh : parseHeaders f.headers [] with
  | error x => exact Or.inl ⟨x, rfl⟩
  | ok headers =>
  rw [lift_ok rfl]
  cases hct : parseTimeout e f.callTimeout with
  | error x => exact Or.inl ⟨x, rfl⟩
  | ok ct =>
  rw [lift_ok rfl]
  cases hnt : parseTimeout e f.connectTimeout with
  | error x => exact Or.inl ⟨x, rfl⟩
  | ok nt =>
  rw [lift_ok rfl]
  cases hkt : parseTimeout e f.keepaliveTime with
  | error x => exact Or.inl ⟨x, rfl⟩
  | ok kt =>
  rw [lift_ok rfl]
  unfold getMeta
  rw [lift_ok hm, bind_of_ok (w1 := w) ((compile_ok hp).2 ⟨hk, hc, rfl⟩)]
  by_cases hl : sets.length = 0
  · rw [if_pos hl]; exact Or.inl ⟨_, rfl⟩
  · rw [if_neg hl]
    cases hcall : plan e f headers ct nt kt sets with
    | error x => exact Or.inl ⟨x, rfl⟩
    | ok call =>
      rw [lift_ok rfl]
      refine Or.inr ⟨call, plan_callFor hh hct hnt hkt hcall, ?_⟩
      have htext : printEvent f.details = eventText f.details := funext (C77_events f.details)
      unfold invoke
      rcases hrpc : e.rpc call with ⟨events, _ | err⟩
      · dsimp only
        rw [htext]
        cases hev : eventsErr events none with
        | some x =>
          refine ⟨rfl, Or.inr ⟨x, rfl, Or.inr ⟨rfl, ?_⟩⟩⟩
          exact eventsErr_mem hev
        | none => exact ⟨rfl, Or.inl ⟨rfl, rfl, ((eventsErr_eq events none).1 hev).2⟩⟩
      · dsimp only
        rw [htext]
        exact ⟨rfl, Or.inr ⟨err, rfl, Or.inl rfl⟩⟩

/-- C77: when grpc ends well, the flags were accepted, the files compiled, exactly one call was
made and it is the one the flags describe, its status was OK, no file was changed, and the output
is the text of what was received, in order. -/
theorem C77_success {h : Exec.Host} (hp : Prints h) {e : Grpc.Env} {args : List Str} {f : Grpc.Flags}
    {w w' : World} (hr : grpcCmd h e args f w = (w', .ok ())) :
    FlagsAccepted f ∧ ∃ m sets call events, metaOf h (fileOrDir args) = .ok m ∧
      h.compile { doFileDescriptorSet := true } w.disk m.protoSet = .ok ([], sets) ∧
      CallFor e.parseDuration f sets call ∧ e.rpc call = (events, none) ∧
      (∀ err s md, Event.trailers (some err) s md ∉ events) ∧
      w' = { w with out := w.out ++ events.flatMap (eventText f.details) } := by
  unfold grpcCmd at hr
  cases hc : checkFlags f with
  | some message => rw [hc] at hr; cases hr
  | none =>
    rw [hc] at hr
    dsimp only at hr
    refine ⟨(C51_flags f).1 hc, ?_⟩
    replace hr := bind_ok.1 hr
    obtain ⟨w1, headers, hh, hr⟩ := hr
    replace hr := bind_ok.1 hr
    obtain ⟨w2, ct, hct, hr⟩ := hr
    replace hr := bind_ok.1 hr
    obtain ⟨w3, nt, hnt, hr⟩ := hr
    replace hr := bind_ok.1 hr
    obtain ⟨w4, kt, hkt, hr⟩ := hr
    replace hr := bind_ok.1 hr
    obtain ⟨w5, m, hm, hr⟩ := hr
    replace hr := bind_ok.1 hr
    obtain ⟨w6, sets, hs, hr⟩ := hr
    have lift : ∀ {α : Type} {x : Except Err α} {w w' : World} {a : α},
        Run.lift x w = (w', .ok a) → x = .ok a ∧ w' = w := by
      intro α x w w' a hx
      cases x with
      | error e => cases hx
      | ok b => injection hx with h1 h2; injection h2 with h2; exact ⟨by rw [h2], h1.symm⟩
    obtain ⟨hh', rfl⟩ := lift hh
    obtain ⟨hct', rfl⟩ := lift hct
    obtain ⟨hnt', rfl⟩ := lift hnt
    obtain ⟨hkt', rfl⟩ := lift hkt
    obtain ⟨hm', rfl⟩ := lift hm
    obtain ⟨_, hcomp, rfl⟩ := (compile_ok hp).1 hs
    by_cases hl : sets.length = 0
    · rw [if_pos hl] at hr; cases hr
    · rw [if_neg hl] at hr
      replace hr := bind_ok.1 hr
      obtain ⟨w7, call, hcall, hr⟩ := hr
      obtain ⟨hcall', rfl⟩ := lift hcall
      unfold invoke at hr
      rcases hrpc : e.rpc call with ⟨events, err⟩
      rw [hrpc] at hr
      dsimp only at hr
      cases err with
      | some x => cases hr
      | none =>
        dsimp only at hr
        cases hev : eventsErr events none with
        | some x => rw [hev] at hr; cases hr
        | none =>
          rw [hev] at hr
          injection hr with hr _
          refine ⟨m, sets, call, events, hm', hcomp, plan_callFor hh' hct' hnt' hkt' hcall', hrpc,
            ((eventsErr_eq events none).1 hev).2, ?_⟩
          rw [← hr]
          have : printEvent f.details = eventText f.details := funext (C77_events f.details)
          rw [this]


namespace GrpcExample

open Exec.Sample

/-- The sample directory compiles to one set with one service. -/
def grpcHost : Exec.Host :=
  { host with compile := fun _ _ _ => .ok ([], [[grpcFile s%"b" s%"p" s%"B"]]) }

/-- A server that answers with two messages, the second one empty. -/
def env : Grpc.Env where
  order := .id
  parseDuration _ := .error s%"no duration"
  createFile _ := .ok ()
  source _ := .ok ()
  credentials _ := .ok ()
  rpc _ := ([.headers ⟨false, .ok s%"{\"a\":\"b\"}"⟩, .response (some (.ok s%"{\"x\":1}")),
    .response (some (.ok s%"{}")), .trailers none none ⟨true, .ok s%"{}"⟩], none)

/-- A call of its method. -/
def flags : Grpc.Flags :=
  { address := s%"a:1", method := s%"p.B/C", data := s%"{}", details := true }

/-- Non-vacuity for C77: the headers and the first message are printed. -/
example : (grpcCmd grpcHost env [s%"a"] flags world).1.out =
      s%"{\"headers\":{\"a\":\"b\"}}\n{\"response\":{\"x\":1}}\n" ∧
    (grpcCmd grpcHost env [s%"a"] flags world).2 = .ok () := by decide +kernel
example : Prints grpcHost := fun _ _ => rfl
example : metaOf grpcHost (fileOrDir [s%"a"]) = .ok dir := rfl
example : ErrorFormatKnown grpcHost := ⟨_, rfl⟩
example : FlagsAccepted flags := by rw [← C51_flags]; decide

end GrpcExample

end Verif.Props
