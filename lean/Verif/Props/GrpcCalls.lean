import Verif.Props.GrpcOrder
import Verif.Spec.GrpcCalls

/-!
# C77: `grpc` calls whenever it can
-/

namespace Verif.Props

open Verif Str Spec Exec File Descriptor Grpc

theorem parseTimeout_ok {e : Env} {t : Str} (h : ∃ d, Duration e.parseDuration t d) : ∃ d, parseTimeout e t = .ok d := by
  obtain ⟨d, ⟨rfl, rfl⟩ | ⟨hne, hd⟩⟩ := h
  · exact ⟨0, rfl⟩
  · exact ⟨d, by unfold parseTimeout; rw [if_neg hne, hd]⟩

theorem plan_ok {e : Env} {f : Grpc.Flags} {sets : List FileSet} (h : CanCall e f sets) (headers : GoMap Str Str)
    (a b c : Int) : ∃ call, plan e f headers a b c sets = .ok call := by
  have hsort : ∀ set ∈ sets, ∀ file ∈ set, ∃ r, Desc.sortFileDescriptorSet set file = .ok r := fun set hset file hfile =>
    ⟨_, Proof.Desc.sort_ok_iff.2 ⟨(h.accepted set hset).1.names, (h.accepted set hset).1.distinct, ⟨file, hfile, rfl⟩, rfl⟩⟩
  have h1 : ∃ source, sourceForMethod e sets f.method = .ok source := by
    obtain ⟨path, name, rpc, hm, hp, hr, hne, hname, hserv⟩ := h.service
    have hs := (C51_method f.method path).2 ⟨rpc, hm, hp, hr⟩
    have hpne : path ≠ [] := by
      rcases hname with ⟨rfl, _⟩ | rfl
      · exact hne
      · simp
    have hlook : lookedUp path = name := by
      unfold lookedUp
      rcases hname with ⟨rfl, hd⟩ | rfl
      · rw [if_neg hd]
      · simp
    obtain ⟨info, hi⟩ := findInSets_found (path := name) (fun set hset =>
      ⟨(h.accepted set hset).1.packages, (h.accepted set hset).1.services name⟩) hserv
    obtain ⟨hmem, hone⟩ := findInSets_mem hi
    have hfile : info.file ∈ info.set := mem_servicesOf (p := (info.service, info.file)) (by rw [hone]; simp)
    obtain ⟨r, hr⟩ := hsort _ hmem _ hfile
    obtain ⟨p1, p2⟩ := sort_perm hfile hr
    refine ⟨r, ?_⟩
    unfold sourceForMethod
    rw [hs]
    dsimp only
    rw [getServiceInfo_eq hpne, hlook, hi]
    dsimp only
    rw [hr]
    dsimp only
    rw [(h.accepted _ hmem).1.accepted _ hfile _ p1 p2]
  have h2 : checkResolver e (resolverFiles sets) = .ok () := by
    refine checkResolver_ok.2 fun p hp => ?_
    obtain ⟨set, hset, hp⟩ := List.mem_flatMap.1 hp
    obtain ⟨file, hfile, rfl⟩ := List.mem_map.1 hp
    obtain ⟨r, hr⟩ := hsort _ hset _ hfile
    obtain ⟨p1, p2⟩ := sort_perm hfile hr
    unfold resolveFile
    rw [hr]
    exact (h.accepted _ hset).2 _ hfile _ p1 p2
  obtain ⟨source, h1⟩ := h1
  obtain ⟨network, address, h3⟩ := h.address
  unfold plan
  rw [h1]
  dsimp only
  rw [h2]
  dsimp only
  rw [(C51_address _ _ _).2 h3]
  dsimp only
  cases ht : f.tls with
  | false => exact ⟨_, rfl⟩
  | true =>
    simp only [if_true]
    rw [h.credentials ht]
    exact ⟨_, rfl⟩

/-- C77: **if nothing is wrong there is a call**, the one that the flags describe. What is received is printed, and the
command ends well exactly if the call did and its status was OK. -/
theorem C77_called {h : Exec.Host} (hp : Prints h) {e : Grpc.Env} {args : List Str} {f : Grpc.Flags}
    {w : World} {m : Meta} {sets : List FileSet} (hf : FlagsAccepted f) (hk : ErrorFormatKnown h)
    (hm : metaOf h (fileOrDir args) = .ok m)
    (hc : h.compile { doFileDescriptorSet := true } w.disk m.protoSet = .ok ([], sets)) (hcan : CanCall e f sets) :
    ∃ call, CallFor e.parseDuration f sets call ∧
      (grpcCmd h e args f w).1 = { w with out := w.out ++ (e.rpc call).1.flatMap (eventText f.details) } ∧
      ((grpcCmd h e args f w).2 = .ok () ↔
        (e.rpc call).2 = none ∧ ∀ err s md, Event.trailers (some err) s md ∉ (e.rpc call).1) := by
  have lift_ok : ∀ {α β : Type} {x : Except Err α} {g : α → Run β} {a : α}, x = .ok a →
      Run.bind (Run.lift x) g w = g a w := by
    intro α β x g a hx; subst hx; rfl
  unfold grpcCmd
  rw [(C51_flags f).2 hf]
  dsimp only
  cases hh : parseHeaders f.headers [] with
  | error x =>
    obtain ⟨hd, hmem, hno⟩ := (C51_headers f.headers).1.1 ⟨x, hh⟩
    obtain ⟨k, v, hkv⟩ := hcan.headers hd hmem
    exact absurd hkv (hno k v)
  | ok headers =>
  obtain ⟨ct, hct⟩ := parseTimeout_ok hcan.callTimeout
  obtain ⟨nt, hnt⟩ := parseTimeout_ok hcan.connectTimeout
  obtain ⟨kt, hkt⟩ := parseTimeout_ok hcan.keepaliveTime
  have hl : ¬ sets.length = 0 := by
    obtain ⟨_, _, _, _, _, _, _, _, set, hset, _⟩ := hcan.service
    have := List.length_pos_of_mem hset
    omega
  obtain ⟨call, hcall⟩ := plan_ok hcan headers ct nt kt
  rw [lift_ok rfl, lift_ok hct, lift_ok hnt, lift_ok hkt]
  unfold getMeta
  rw [lift_ok hm, bind_of_ok (w1 := w) ((compile_ok hp).2 ⟨hk, hc, rfl⟩), if_neg hl, lift_ok hcall]
  refine ⟨call, plan_callFor hh hct hnt hkt hcall, ?_⟩
  have htext : printEvent f.details = eventText f.details := funext (C77_events f.details)
  unfold invoke
  rcases hrpc : e.rpc call with ⟨events, _ | err⟩
  · dsimp only
    rw [htext]
    cases hev : eventsErr events none with
    | some x =>
      refine ⟨rfl, fun h => (by cases h), fun h => ?_⟩
      rw [(eventsErr_eq events none).2 ⟨rfl, h.2⟩] at hev
      cases hev
    | none => exact ⟨rfl, fun _ => ⟨rfl, ((eventsErr_eq events none).1 hev).2⟩, fun _ => rfl⟩
  · dsimp only
    rw [htext]
    exact ⟨rfl, fun h => (by cases h), fun h => (by cases h.1)⟩

/-- The command of `GrpcExample` can make its call. -/
example : CanCall GrpcExample.env GrpcExample.flags [[grpcFile s%"b" s%"p" s%"B"]] where
  headers := by intro _ h; cases h
  callTimeout := ⟨0, .inl ⟨rfl, rfl⟩⟩
  connectTimeout := ⟨0, .inl ⟨rfl, rfl⟩⟩
  keepaliveTime := ⟨0, .inl ⟨rfl, rfl⟩⟩
  address := ⟨_, _, (C51_address s%"a:1" s%"tcp" s%"a:1").1 rfl⟩
  credentials := by intro h; cases h
  accepted := by
    intro set hset
    obtain rfl := List.mem_singleton.1 hset
    refine ⟨⟨by decide, by decide, by decide, fun name => ?_, fun _ _ _ _ _ => rfl⟩, fun _ _ _ _ _ => rfl⟩
    refine Nat.le_trans (List.length_filter_le _ _) ?_
    simp [grpcFile]
  service := ⟨s%"p.B", s%"p.B", s%"C", rfl, by decide, by decide, by decide, .inl ⟨rfl, by decide⟩, _, .head _, by decide⟩

end Verif.Props
