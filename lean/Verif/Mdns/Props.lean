import Verif.Mdns.Discover

/-!
# Properties of multicast DNS

* C66: whatever packet arrives, handling it ends and reads only what was received.
* C67: a station that announces itself is found by the others, with its own data.
-/

namespace Verif.Mdns

open Verif.Xchg

/-! ### C66 -/

/-- The part of C66 that holds: a well-formed answer is read in full and as it is, whatever is in the buffer behind it. -/
theorem C66_answer_partial {p : Bytes} {items : List Item} (h : IsAnswer p items) (rest : Bytes) (fuel : Nat) (hf : 257 ≤ fuel) :
    receive (p ++ rest) p.length fuel = .ok items := receive_packet h rest fuel hf

/-- The part of C66 that holds: a well-formed question of a type other than SRV gets the reply it should, whatever is in the buffer behind
it. -/
theorem C66_question_partial {p n : Bytes} {type cls : Nat} (h : IsQuestion p n type cls) (ht : type ≠ 33) (hc : cls % 32768 = 1)
    (rest : Bytes) (fuel : Nat) (hf : 257 ≤ fuel) (service : Bytes) :
    hear (p ++ rest) p.length fuel service = .ok
      [if type ≠ 12 then .nothing
       else if n = dnsSd then .services
       else if n = service then .service (32768 ≤ cls)
       else .nothing] := by
  rw [hear_question h ht hc rest fuel hf service, replyTo]
  by_cases h12 : type = 12
  · subst h12; rfl
  · rw [if_neg h12, if_pos h12]

/-- The part of C66 that holds for several questions: a station replies to the questions of a well-formed packet one after the other.
Missing: questions of the type SRV. -/
theorem C66_questions_partial {p : Bytes} {flags : Nat} {qs : List Question} (h : HasQuestions p flags qs) (ht : ∀ q ∈ qs, q.type ≠ 33)
    (rest : Bytes) (fuel : Nat) (hf : 257 ≤ fuel) (service : Bytes) :
    ∃ rs, Replies service (flags = 0 ∧ qs.length = 1) qs rs ∧ hear (p ++ rest) p.length fuel service = .ok rs := by
  obtain ⟨id, a, u, d, hh, hq⟩ := h
  obtain ⟨⟨y, k0⟩, k1, k2, _, _, _, hle⟩ := header_read hh rest
  rw [hear, listen, if_neg (by omega), k0, bind_ok, k1, bind_ok, k2, bind_ok]
  exact questions_replies rest flags qs.length fuel hf service qs 12 hq ht

/-- The part of C66 that holds for all bytes: skipping a name ends, and a text that is made of a name is not longer than its buffer. -/
theorem C66_names_partial (m : Bytes) (size : Nat) (hs : size ≤ m.length) (off : Nat) :
    skip m size (m.length + 1) off ≠ .running ∧
    ∀ cap fuel t, extractText m size cap fuel off = .ok t → t.length ≤ cap := by
  refine ⟨skip_ends m size hs _ _ (by omega) (by omega), fun cap fuel t h => ?_⟩
  unfold extractText at h
  cases he : extract m size cap fuel off none [] with
  | running => rw [he] at h; exact absurd h (by simp [Out.bind])
  | outside => rw [he] at h; exact absurd h (by simp [Out.bind])
  | ok r =>
    rw [he, bind_ok] at h
    injection h with h
    cases r with
    | none => rw [← h]; exact Nat.zero_le _
    | some r =>
      rw [← h]
      exact extract_length m size cap fuel off none [] r.1 r.2 (Nat.zero_le _) he

theorem extract_loops {m : Bytes} {size cap cur : Nat} {x : Sub} {l : Bytes} (h : nextSub m size cur = .ok (some x)) (hn : x.length ≠ 0)
    (hb : x.offset + x.length = cur) (hc : copy m x.offset x.length = .ok l) (fuel : Nat) (fin : Option Nat) (acc : Bytes) :
    extract m size cap fuel cur fin acc = .running := by
  induction fuel generalizing fin acc with
  | zero => rfl
  | succ fuel ih =>
    rw [extract, h, bind_ok]
    simp only
    rw [if_neg hn, hc, bind_ok, hb]
    exact ih _ _

theorem records_next {β : Type} {p : Bytes} {o type cls ttl len size nameOff : Nat} {s : Bytes} (e : Entry) (cb : Rec → Out β) (n : Nat)
    (hskip : skip (p ++ s) size ((p ++ s).length + 1) nameOff = .ok (some o)) (hh : Has p o (net16 type ++ net16 cls ++ net32 ttl ++ net16 len))
    (ht : type < 65536) (hl : len < 65536) : ∃ cls' ttl', records (p ++ s) size e cb (n + 1) nameOff =
      (cb ⟨e, type, cls', ttl', nameOff, o - nameOff, o + 10, len⟩).bind fun b =>
        (records (p ++ s) size e cb n (o + 10 + len)).bind fun r => .ok (b :: r.1, r.2) := by
  have e1 : ∀ x : Nat, (net16 x).length = 2 := fun _ => rfl
  have e2 : ∀ x : Nat, (net32 x).length = 4 := fun _ => rfl
  have g := hh.app s
  have g0 := g.left.left.left
  have g1 := g.left.left.right
  have g2 := g.left.right
  have g3 := g.right
  simp only [List.length_append, e1, e2] at g1 g2 g3
  obtain ⟨y2, k2⟩ := someU16 g1
  obtain ⟨y3, k3⟩ := someU32 g2
  refine ⟨y2, y3, ?_⟩
  rw [records, hskip, bind_ok]
  simp only [Option.getD_some]
  rw [g0.u16 ht, bind_ok, k2, bind_ok, k3, bind_ok, g3.u16 hl, bind_ok]

/-- An answer whose only name refers to itself. -/
def selfAnswer : Bytes := [0, 0, 0, 0, 0, 0, 0, 1, 0, 0, 0, 0] ++ [1, 97, 0xC0, 12] ++ [0, 1, 0, 1, 0, 0, 0, 0, 0, 0]

/-- **Violation.** An answer of 26 bytes, whose name refers to itself, is read for ever: `QueryLocalServices` never returns. -/
theorem C66_answer_loop_violated (rest : Bytes) (fuel : Nat) : receive (selfAnswer ++ rest) selfAnswer.length fuel = .running := by
  have h12 : Has selfAnswer 12 [1, 97] := ⟨[0, 0, 0, 0, 0, 0, 0, 1, 0, 0, 0, 0], [0xC0, 12] ++ [0, 1, 0, 1, 0, 0, 0, 0, 0, 0], by decide, rfl⟩
  have h14 : Has selfAnswer 14 (net16 (0xC000 + 12)) :=
    ⟨[0, 0, 0, 0, 0, 0, 0, 1, 0, 0, 0, 0] ++ [1, 97], [0, 1, 0, 1, 0, 0, 0, 0, 0, 0], by decide, rfl⟩
  have n12 : nextSub (selfAnswer ++ rest) selfAnswer.length 12 = .ok (some ⟨13, 1, false⟩) := nextSub_label (l := [97]) (by simp) (by decide) h12
  have n14 : nextSub (selfAnswer ++ rest) selfAnswer.length 14 = .ok (some ⟨13, 1, true⟩) :=
    nextSub_ref (l := [97]) (by decide) h14 (by decide) h12
  have hc : copy (selfAnswer ++ rest) 13 1 = .ok [97] := by
    rw [copy, if_pos (by simp [selfAnswer])]
    rfl
  have hx : extractText (selfAnswer ++ rest) selfAnswer.length 256 fuel 12 = .running := by
    rw [extractText]
    cases fuel with
    | zero => rfl
    | succ fuel =>
      rw [extract, n12, bind_ok]
      simp only
      rw [if_neg (by decide), hc, bind_ok, extract_loops n14 (by decide) rfl hc]
      rfl
  have hskip : skip (selfAnswer ++ rest) selfAnswer.length ((selfAnswer ++ rest).length + 1) 12 = .ok (some 16) := by
    have : ∃ k, (selfAnswer ++ rest).length = k + 1 := ⟨(selfAnswer ++ rest).length - 1, by simp [selfAnswer]⟩
    obtain ⟨k, hk⟩ := this
    rw [hk, skip, n12, bind_ok]
    simp only
    rw [if_neg (by decide), if_neg (by decide), skip, n14, bind_ok]
    rfl
  have hh : HeaderAt selfAnswer 0 0 0 1 0 0 := ⟨by omega, by omega, by omega, by omega, by omega, [], selfAnswer.drop 12, by decide, rfl⟩
  obtain ⟨⟨y, k0⟩, k1, k2, k3, k4, k5, _⟩ := header_read hh rest
  obtain ⟨cls, ttl, hr⟩ := records_next (p := selfAnswer) (s := rest) (o := 16) (type := 1) (cls := 1) (ttl := 0) (len := 0)
    .answer (queryCallback (selfAnswer ++ rest) selfAnswer.length fuel) 0 hskip
    ⟨[0, 0, 0, 0, 0, 0, 0, 1, 0, 0, 0, 0] ++ [1, 97, 0xC0, 12], [], by decide, rfl⟩ (by omega) (by omega)
  rw [receive, queryRecv, if_neg (by decide), k0, bind_ok, k1, bind_ok, k2, bind_ok, k3, bind_ok, k4, bind_ok, k5, bind_ok, if_neg (by omega),
    skipQuestions, bind_ok]
  simp only
  rw [hr, queryCallback]
  simp only
  rw [hx]
  rfl

/-- A question for the SRV record of the name "xxx\x01a\xC0\x10.", a name of one label. -/
def srvQuestion : Bytes := [0, 0, 0, 0, 0, 1, 0, 0, 0, 0, 0, 0] ++ [7, 120, 120, 120, 1, 97, 0xC0, 16, 0] ++ [0, 33, 0, 1]

/-- **Violation.** A well-formed question for an SRV record is handled for ever: the station never answers again, and leaving the group
blocks.  The name of the question is read as the data of a record, from its seventh byte on. -/
theorem C66_question_loop_violated : IsQuestion srvQuestion ([120, 120, 120, 1, 97, 0xC0, 16] ++ [46]) 33 1 ∧
    ∀ rest fuel service, hear (srvQuestion ++ rest) srvQuestion.length fuel service = .running := by
  have hh : HeaderAt srvQuestion 0 0 1 0 0 0 := ⟨by omega, by omega, by omega, by omega, by omega, [], srvQuestion.drop 12, by decide, rfl⟩
  have hn : NameIs srvQuestion 12 ([120, 120, 120, 1, 97, 0xC0, 16] ++ [46]) 21 := by
    refine ⟨[[120, 120, 120, 1, 97, 0xC0, 16]], .label (by simp) (by decide) ?_ (.stop ?_), by decide, by decide⟩
    · exact ⟨[0, 0, 0, 0, 0, 1, 0, 0, 0, 0, 0, 0], [0] ++ [0, 33, 0, 1], by decide, rfl⟩
    · exact ⟨[0, 0, 0, 0, 0, 1, 0, 0, 0, 0, 0, 0] ++ [7, 120, 120, 120, 1, 97, 0xC0, 16], [0, 33, 0, 1], by decide, rfl⟩
  have hq : Has srvQuestion 21 (net16 33 ++ net16 1) :=
    ⟨[0, 0, 0, 0, 0, 1, 0, 0, 0, 0, 0, 0] ++ [7, 120, 120, 120, 1, 97, 0xC0, 16, 0], [], by decide, rfl⟩
  refine ⟨⟨0, 0, 0, 0, 25, hh, 21, hn, by omega, by omega, hq, rfl⟩, fun rest fuel service => ?_⟩
  have h16 : Has srvQuestion 16 [1, 97] :=
    ⟨[0, 0, 0, 0, 0, 1, 0, 0, 0, 0, 0, 0] ++ [7, 120, 120, 120], [0xC0, 16, 0] ++ [0, 33, 0, 1], by decide, rfl⟩
  have h18 : Has srvQuestion 18 (net16 (0xC000 + 16)) :=
    ⟨[0, 0, 0, 0, 0, 1, 0, 0, 0, 0, 0, 0] ++ [7, 120, 120, 120, 1, 97], [0] ++ [0, 33, 0, 1], by decide, rfl⟩
  have n18 : nextSub (srvQuestion ++ rest) srvQuestion.length 18 = .ok (some ⟨17, 1, true⟩) :=
    nextSub_ref (l := [97]) (by decide) h18 (by decide) h16
  have hc : copy (srvQuestion ++ rest) 17 1 = .ok [97] := by
    rw [copy, if_pos (by simp [srvQuestion])]
    rfl
  have hx : extractText (srvQuestion ++ rest) srvQuestion.length 256 fuel 18 = .running := by
    rw [extractText, extract_loops n18 (by decide) rfl hc]
    rfl
  obtain ⟨⟨y, k0⟩, k1, k2, _, _, _, hle⟩ := header_read hh rest
  have g1 := (hq.app rest).left
  have g2 := (hq.app rest).right
  rw [show (net16 33).length = 2 from rfl] at g2
  rw [hear, listen, if_neg (by omega), k0, bind_ok, k1, bind_ok, k2, bind_ok, questions, questionEnd_name hn rest, bind_ok]
  simp only
  rw [g1.u16 (by omega), bind_ok, g2.u16 (by omega), bind_ok, if_neg (by omega), serviceCallback]
  simp only
  rw [if_neg (by simp), if_neg (by omega), if_pos trivial, parseSrv, if_pos (by decide)]
  obtain ⟨z1, j1⟩ : ∃ z, u16 (srvQuestion ++ rest) 12 = .ok z := ⟨_, rfl⟩
  obtain ⟨z2, j2⟩ : ∃ z, u16 (srvQuestion ++ rest) (12 + 2) = .ok z := ⟨_, rfl⟩
  obtain ⟨z3, j3⟩ : ∃ z, u16 (srvQuestion ++ rest) (12 + 4) = .ok z := ⟨_, rfl⟩
  rw [j1, bind_ok, j2, bind_ok, j3, bind_ok, hx]
  rfl

/-- An answer that announces two records but ends inside the first one. -/
def longAnswer : Bytes := [0, 0, 0, 0, 0, 0, 0, 2, 0, 0, 0, 0] ++ [0] ++ [0, 1, 0, 1, 0, 0, 0, 0, 0xFF, 0xFF]

/-- **Violation.** An answer of 23 bytes makes the receiver read far outside of its buffer (which has 2048 bytes). -/
theorem C66_outside_violated (rest : Bytes) (h : rest.length ≤ 65535) (fuel : Nat) (hf : 257 ≤ fuel) :
    receive (longAnswer ++ rest) longAnswer.length fuel = .outside := by
  have hh : HeaderAt longAnswer 0 0 0 2 0 0 := ⟨by omega, by omega, by omega, by omega, by omega, [], longAnswer.drop 12, by decide, rfl⟩
  have hn : NameIs longAnswer 12 [] 13 := by
    refine ⟨[], .stop ?_, rfl, by decide⟩
    exact ⟨[0, 0, 0, 0, 0, 0, 0, 2, 0, 0, 0, 0], [0, 1, 0, 1, 0, 0, 0, 0, 0xFF, 0xFF], by decide, rfl⟩
  obtain ⟨⟨y, k0⟩, k1, k2, k3, k4, k5, _⟩ := header_read hh rest
  obtain ⟨cls, ttl, hr⟩ := records_next (p := longAnswer) (s := rest) (o := 13) (type := 1) (cls := 1) (ttl := 0) (len := 65535)
    .answer (queryCallback (longAnswer ++ rest) longAnswer.length fuel) 1 (hn.skip rest)
    ⟨[0, 0, 0, 0, 0, 0, 0, 2, 0, 0, 0, 0] ++ [0], [], by decide, rfl⟩ (by omega) (by omega)
  rw [receive, queryRecv, if_neg (by decide), k0, bind_ok, k1, bind_ok, k2, bind_ok, k3, bind_ok, k4, bind_ok, k5, bind_ok, if_neg (by omega),
    skipQuestions, bind_ok]
  simp only
  rw [hr, queryCallback]
  simp only
  rw [hn.text rest fuel hf, bind_ok, if_neg (by omega), if_neg (by omega), if_pos trivial, parseIp, if_neg (by decide), bind_ok, bind_ok, records, skip,
    nextSub, byteAt]
  have : (longAnswer ++ rest)[13 + 10 + 65535]? = none := by
    rw [List.getElem?_eq_none_iff, List.length_append]
    show 23 + rest.length ≤ _
    omega
  rw [this]
  rfl

/-! ### C67 -/

/-- What a searching station asks is answered by every station, with its service. -/
theorem C67_asked (ephemeral : Bool) : ∃ q, querySend 2048 12 (bytesOf serviceText) 0 ephemeral = some q ∧
    ∀ (p : Announced) (ip : Option Bytes) (rest : Bytes) (fuel : Nat), 257 ≤ fuel →
      hear (q ++ rest) q.length fuel (p.service ip).service = .ok [.service ephemeral] := by
  obtain ⟨q, hq, hi⟩ := query_packet ephemeral
  refine ⟨q, by rw [service_bytes]; exact hq, fun p ip rest fuel hf => ?_⟩
  rw [hear_question hi (by omega) (by cases ephemeral <;> rfl) rest fuel hf]
  show Out.ok [replyTo (bytesOf serviceText) _ _ _] = _
  rw [service_bytes, replyTo, if_pos rfl, if_neg (by decide), if_pos rfl]
  cases ephemeral <;> rfl

/-- Its answer is sent. -/
theorem C67_answered_partial (p : Announced) (hp : p.Good) (ip : Bytes) (hip : ip.length = 4) (unicast : Bool) (id : Nat) :
    ∃ packet, queryAnswer 512 unicast id (p.service (some ip)) = .ok (some packet) ∧ packet.length ≤ 512 := by
  obtain ⟨q, h1, h2, _⟩ := answer_packet _ (hp.fits (some ip) (by rintro a ⟨⟩; exact hip)) unicast id
  exact ⟨q, h1, h2⟩

theorem wanted_of {own : List (List Char)} {r : Answer} {pre : List Char} (h1 : r.serviceName = pre ++ serviceText) (h2 : r.ipV4 ≠ [])
    (h3 : ∀ ip ∈ r.ipV4, ip ++ ':' :: Str.natText r.port ∉ own) : Wanted own r := ⟨⟨pre, h1⟩, h2, h3⟩

/-- The part of C67 that holds: of the answers that arrive, in any order and number, from stations with different addresses, a search
makes a list with every station once, with its own group, name, UUID and port, and all the IPv4 addresses it sent. -/
theorem C67_found_partial (text4 text6 : Bytes → Bytes) (own : List (List Char)) (st : Bytes → Announced) (as : List Arrival)
    (htext : ∀ x ∈ as, (text4 x.ip).length ≤ 1023 ∧ (0 : Byte) ∉ text4 x.ip)
    (hgood : ∀ x ∈ as, (st x.sender).Good) (hip : ∀ x ∈ as, x.ip.length = 4) (hfrom : ∀ x ∈ as, x.From (st x.sender))
    (hown : ∀ x ∈ as, chars (text4 x.ip) ++ ':' :: Str.natText (st x.sender).port ∉ own)
    (hkey : ∀ x ∈ as, ∀ y ∈ as, text4 x.ip = text4 y.ip → (st x.sender).port = (st y.sender).port → x.sender = y.sender)
    (fuel : Nat) (hf : 257 ≤ fuel) :
    ∃ (l : List Bytes) (ips : Bytes → List (List Char)), l.Nodup ∧ (∀ a, a ∈ l ↔ ∃ x ∈ as, x.sender = a) ∧
      (∀ a, (ips a).Nodup) ∧ (∀ a t, t ∈ ips a ↔ ∃ x ∈ as, x.sender = a ∧ chars (text4 x.ip) = t) ∧
      search text4 text6 own fuel (as.map fun x => (x.sender, x.packet ++ x.rest, x.packet.length)) = .ok (some (.ok (l.map fun a =>
        { service := filterServiceName (st a).group ++ '.' :: "_mvrxchange._tcp.local.".toList, uuid := (st a).uuid, name := (st a).name,
          ipV4 := ips a, ipV6 := [], port := (st a).port }))) := by
  let as' : List (Bytes × Option Bytes) := as.map fun x => (x.sender, some x.ip)
  have hmem : ∀ a t, t ∈ (ipsOf text4 as' a).map chars ↔ ∃ x ∈ as, x.sender = a ∧ chars (text4 x.ip) = t := by
    intro a t
    rw [List.mem_map]
    constructor
    · rintro ⟨b, hb, rfl⟩
      obtain ⟨ip, hi, rfl⟩ := (mem_ipsOf _ _ _ _).1 hb
      obtain ⟨x, hx, e⟩ := List.mem_map.1 hi
      injection e with e1 e2
      injection e2 with e2
      exact ⟨x, hx, e1, by rw [e2]⟩
    · rintro ⟨x, hx, rfl, rfl⟩
      exact ⟨_, (mem_ipsOf _ _ _ _).2 ⟨x.ip, List.mem_map.2 ⟨x, hx, rfl⟩, rfl⟩, rfl⟩
  have hsend : as'.map (·.1) = as.map (·.sender) := by
    show (as.map _).map _ = _
    rw [List.map_map]
    rfl
  have hl : ∀ a, a ∈ distinct [] (as'.map (·.1)) ↔ ∃ x ∈ as, x.sender = a := by
    intro a
    rw [mem_distinct, hsend, List.mem_map]
    simp
  refine ⟨distinct [] (as'.map (·.1)), fun a => (ipsOf text4 as' a).map chars, nodup_distinct _ _, hl, fun a => ?_, hmem, ?_⟩
  · refine (List.pairwise_map).2 ((setOf_nodup _).imp fun {x y} h e => h (chars_inj e))
  · have hnum := fun a (ha : a ∈ distinct [] (as'.map (·.1))) => (by
      obtain ⟨x, hx, rfl⟩ := (hl a).1 ha
      exact hgood x hx : (st a).Good)
    have hfull : ∀ a, chars (((st a).service none).host ++ 46 :: mvrService) = filterServiceName (st a).group ++ '.' :: serviceText := by
      intro a
      rw [chars_append]
      show chars (bytesOf _) ++ Char.ofNat 46 :: chars mvrService = _
      rw [service_chars, chars_bytesOf _ fun c hc => Nat.lt_trans (filter_range _ c hc).1 (by omega)]
    rw [search, receiveAll_eq st as fuel hf hgood hip hfrom, bind_ok, collect_found]
    rw [filterQueries_all]
    · rw [stations_map fuel _ _ (fun a => (st a).name)
        (fun a => Uuid.convertToText (Uuid.ofWords (st a).uuid.1 (st a).uuid.2.1 (st a).uuid.2.2.1 (st a).uuid.2.2.2))]
      · congr 3
        refine List.map_congr_left fun a ha => ?_
        have hg := hnum a ha
        unfold station
        simp only [answerOf]
        rw [hfull, keep_self, Uuid.C09_mvr_words]
        · congr 1
          show ((ipsOf text4 as' a).map chars).map keep1023 = _
          rw [List.map_map]
          refine List.map_congr_left fun b hb => ?_
          obtain ⟨ip, hi, rfl⟩ := (mem_ipsOf _ _ _ _).1 hb
          obtain ⟨x, hx, e⟩ := List.mem_map.1 hi
          injection e with e1 e2
          injection e2 with e2
          obtain ⟨h1, h2⟩ := htext x hx
          rw [e2] at h1 h2
          refine keep_self _ ?_ (by simpa [chars] using h1)
          intro h0
          obtain ⟨c, hc, e⟩ := List.mem_map.1 h0
          have : c = 0 := by
            have := chars_inj (a := [c]) (b := [0]) (by simpa [chars] using e)
            simpa using this
          exact h2 (this ▸ hc)
        · intro h0
          rcases List.mem_append.1 h0 with h0 | h0
          · exact (filter_range _ _ h0).2.2 rfl
          · revert h0; decide
        · have := hg.short
          rw [List.length_append, List.length_cons, show serviceText.length = 23 from rfl]
          omega
      · intro a ha
        have hg := hnum a ha
        have hlen := hg.len
        have ht : (answerOf text6 ((st a).service none) (ipsOf text4 as' a)).txt = txtRecord (st a).name (st a).uuid := by
          show (if 255 < (bytesOf (txtRecord (st a).name (st a).uuid)).length then [] else chars (bytesOf (txtRecord (st a).name (st a).uuid))) = _
          rw [if_neg, chars_bytesOf _ (record_range _ _ fun c hc => (hg.name c hc).2)]
          unfold bytesOf
          rw [List.length_map, record_length]
          omega
        show txtLoop (answerOf text6 ((st a).service none) (ipsOf text4 as' a)).txt fuel 0 ([], []) = _
        rw [ht]
        have := txtLoop_announce (st a).name (st a).uuid (by omega)
        rw [if_neg hg.key] at this
        exact txtLoop_more this (by omega)
    · have hnd : (distinct [] (as'.map (·.1))).Pairwise (· ≠ ·) := nodup_distinct _ _
      refine List.pairwise_map.2 (List.Pairwise.imp_of_mem ?_ hnd)
      intro a b ha hb hne e
      obtain ⟨x, hx, hxa⟩ := (hl a).1 ha
      have e1 : (st a).port = (st b).port := congrArg (·.1) e
      have e2 : (ipsOf text4 as' a).map chars = (ipsOf text4 as' b).map chars := congrArg (·.2.1) e
      have : chars (text4 x.ip) ∈ (ipsOf text4 as' b).map chars := by rw [← e2, hmem]; exact ⟨x, hx, hxa, rfl⟩
      obtain ⟨y, hy, hyb, ht⟩ := (hmem _ _).1 this
      have := hkey x hx y hy (chars_inj ht.symm) (by rw [hxa, hyb, e1])
      exact hne (by rw [← hxa, ← hyb, this])
    · intro r hr
      obtain ⟨a, ha, rfl⟩ := List.mem_map.1 hr
      refine wanted_of (pre := filterServiceName (st a).group ++ ['.']) ?_ ?_ ?_
      · rw [List.append_assoc, List.singleton_append, ← hfull a]
        rfl
      · obtain ⟨x, hx, hxa⟩ := (hl a).1 ha
        exact List.ne_nil_of_mem ((hmem a _).2 ⟨x, hx, hxa, rfl⟩)
      · intro ip hi
        obtain ⟨x, hx, hxa, rfl⟩ := (hmem a ip).1 hi
        have := hown x hx
        rw [hxa] at this
        exact this

/-- The usual text of an IPv4 address. -/
def dotted (ip : Bytes) : Bytes := bytesOf ((ip.map fun b => Nat.toDigits 10 b.toNat).intersperse ['.']).flatten

/-- Two stations, one of them with two interfaces. -/
def twoStations (a : Bytes) : Announced :=
  if a = [65] then ⟨"Show 1".toList, "Light desk".toList, (1, 2, 3, 4), 51000⟩ else ⟨"Show 1".toList, "Media server".toList, (5, 6, 7, 8), 51000⟩

theorem twoStations_good (a : Bytes) : (twoStations a).Good := by
  have hi : ∀ l : List Char, '=' ∉ l → ¬ "StationName=".toList <:+: l := by
    rintro l hl ⟨u, v, e⟩
    exact hl (by rw [← e]; simp)
  unfold twoStations
  split
  · exact ⟨by decide, by decide, by unfold OneByte; decide, by decide, by decide, hi _ (by decide), by decide⟩
  · exact ⟨by decide, by decide, by unfold OneByte; decide, by decide, by decide, hi _ (by decide), by decide⟩

/-- The hypotheses of `C67_found_partial` are met by two stations that answer a search three times. -/
example : ∃ as : List Arrival, (as.map fun x => (x.sender, x.ip)) = [([65], [10, 0, 0, 1]), ([66], [10, 0, 0, 7]), ([65], [192, 168, 1, 1])] ∧
    (∀ x ∈ as, (dotted x.ip).length ≤ 1023 ∧ (0 : Byte) ∉ dotted x.ip) ∧ (∀ x ∈ as, (twoStations x.sender).Good) ∧
    (∀ x ∈ as, x.ip.length = 4) ∧ (∀ x ∈ as, x.From (twoStations x.sender)) ∧
    (∀ x ∈ as, ∀ y ∈ as, dotted x.ip = dotted y.ip → (twoStations x.sender).port = (twoStations y.sender).port → x.sender = y.sender) := by
  obtain ⟨p1, h1, _⟩ := C67_answered_partial _ (twoStations_good [65]) [10, 0, 0, 1] rfl true 7
  obtain ⟨p2, h2, _⟩ := C67_answered_partial _ (twoStations_good [66]) [10, 0, 0, 7] rfl false 0
  obtain ⟨p3, h3, _⟩ := C67_answered_partial _ (twoStations_good [65]) [192, 168, 1, 1] rfl false 0
  refine ⟨[⟨[65], [10, 0, 0, 1], p1, [1, 2]⟩, ⟨[66], [10, 0, 0, 7], p2, []⟩, ⟨[65], [192, 168, 1, 1], p3, [0]⟩], rfl, ?_, fun x _ => twoStations_good _,
    ?_, ?_, ?_⟩
  · intro x hx
    simp only [List.mem_cons, List.not_mem_nil, or_false] at hx
    rcases hx with rfl | rfl | rfl <;> (simp only; decide)
  · intro x hx
    simp only [List.mem_cons, List.not_mem_nil, or_false] at hx
    rcases hx with rfl | rfl | rfl <;> rfl
  · intro x hx
    simp only [List.mem_cons, List.not_mem_nil, or_false] at hx
    rcases hx with rfl | rfl | rfl
    · exact ⟨_, _, h1⟩
    · exact ⟨_, _, h2⟩
    · exact ⟨_, _, h3⟩
  · intro x hx y hy
    simp only [List.mem_cons, List.not_mem_nil, or_false] at hx hy
    rcases hx with rfl | rfl | rfl <;> rcases hy with rfl | rfl | rfl <;> (simp only; decide)

/-- An answer and a question as C66 has them. -/
example : ∃ p items, IsAnswer p items ∧ items.length = 4 := by
  obtain ⟨q, _, _, h⟩ := answer_packet _ ((twoStations_good [65]).fits (some [10, 0, 0, 1]) (by rintro a ⟨⟩; rfl)) false 0
  refine ⟨q, _, h, ?_⟩
  rw [List.length_cons, List.length_cons, extraItems_length]
  decide

example (ephemeral : Bool) : ∃ p, IsQuestion p mvrService 12 (if ephemeral then 0x8001 else 1) :=
  let ⟨q, _, h⟩ := query_packet ephemeral
  ⟨q, h⟩

/-- Two questions, the name of the second a reference to the first. -/
example : HasQuestions (net16 7 ++ net16 0 ++ net16 2 ++ net16 0 ++ net16 0 ++ net16 0 ++ ([1, 97, 0] ++ [0, 1, 0, 1]) ++ ([0xC0, 12] ++ [0, 12, 128, 1])) 0
    [⟨[[97]], 1, 1⟩, ⟨[[97]], 12, 32769⟩] := by
  have hs : ∀ o part, (net16 7 ++ net16 0 ++ net16 2 ++ net16 0 ++ net16 0 ++ net16 0 ++ ([1, 97, 0] ++ [0, 1, 0, 1]) ++ ([0xC0, 12] ++ [0, 12, 128, 1]) : Bytes) =
      List.take o (net16 7 ++ net16 0 ++ net16 2 ++ net16 0 ++ net16 0 ++ net16 0 ++ ([1, 97, 0] ++ [0, 1, 0, 1]) ++ ([0xC0, 12] ++ [0, 12, 128, 1])) ++ part ++
      List.drop (o + part.length) (net16 7 ++ net16 0 ++ net16 2 ++ net16 0 ++ net16 0 ++ net16 0 ++ ([1, 97, 0] ++ [0, 1, 0, 1]) ++ ([0xC0, 12] ++ [0, 12, 128, 1])) → o ≤ 25 →
      Has (net16 7 ++ net16 0 ++ net16 2 ++ net16 0 ++ net16 0 ++ net16 0 ++ ([1, 97, 0] ++ [0, 1, 0, 1]) ++ ([0xC0, 12] ++ [0, 12, 128, 1])) o part := by
    intro o part h ho
    refine ⟨_, _, h, ?_⟩
    rw [List.length_take]
    exact Nat.min_eq_left ho
  have hstop : NameAt (net16 7 ++ net16 0 ++ net16 2 ++ net16 0 ++ net16 0 ++ net16 0 ++ ([1, 97, 0] ++ [0, 1, 0, 1]) ++ ([0xC0, 12] ++ [0, 12, 128, 1])) 14 [] 15 :=
    .stop (hs 14 [0] (by decide) (by decide))
  refine ⟨7, 0, 0, 0, ⟨by decide, by decide, by decide, by decide, by decide, hs 0 _ (by decide) (by decide)⟩, ?_⟩
  refine .one (e := 15) (.label (by simp) (by decide) (hs 12 [1, 97] (by decide) (by decide)) hstop) (by decide) (by decide) (by decide)
    (hs 15 _ (by decide) (by decide)) ?_
  exact .one (e := 21) (.ref (to := 12) (by decide) (hs 19 _ (by decide) (by decide)) (by simp) (by decide) (hs 12 [1, 97] (by decide) (by decide)) hstop)
    (by decide) (by decide) (by decide) (hs 21 _ (by decide) (by decide)) .none

theorem make_host_none (capacity : Nat) (host : Bytes) (hd : 46 ∉ host) (hne : host ≠ []) (hc : capacity < host.length + 2) :
    make capacity host = none := by
  rw [make, labels_plain [] host hd (by simpa using hne), List.nil_append, makeLabels]
  split
  · rw [makeLabels, if_pos (by omega)]
    rfl
  · rfl

theorem answerRecords_outside (rclass ttl : Nat) (s : Service) (localOff : Nat) (acc : Bytes) (hd : 46 ∉ s.host) (ha : 36 ≤ acc.length ∧ acc.length ≤ 42)
    (h1 : 222 ≤ s.host.length) (h2 : s.host.length ≤ 444) : answerRecords 512 rclass ttl s localOff acc = .outside := by
  have hne : s.host ≠ [] := by intro e; rw [e] at h1; simp at h1
  have e1 : ∀ x : Nat, (net16 x).length = 2 := fun _ => rfl
  have e2 : ∀ x : Nat, (net32 x).length = 4 := fun _ => rfl
  have hw : (wire [s.host]).length = s.host.length + 1 := by simp [wire]
  rw [answerRecords]
  simp only
  rw [makeWithRef_host _ s.host 12 hd hne (by omega) (by omega), bind_ok]
  simp only [Option.map_some, Option.getD_some]
  rw [step_some (by simp only [List.length_append, e1, e2, hw]; omega)]
  rw [makeRef_eq _ _ (by simp only [List.length_append, e1, e2, hw]; omega) (by omega),
    step_some (by simp only [List.length_append, e1, e2, hw]; omega)]
  rw [makeWithRef, make_host_none _ s.host hd hne (by simp only [List.length_append, e1, e2, hw]; omega)]
  rfl

/-- **Violation.** A station whose group name has 222 to 444 characters (of those that are kept) writes outside of its buffer as soon as
somebody searches.  API: `MVRxchangeString` holds 1023 characters. -/
theorem C67_long_group_violated (p : Announced) (h1 : 222 ≤ (filterServiceName p.group).length) (h2 : (filterServiceName p.group).length ≤ 444)
    (ip : Option Bytes) (unicast : Bool) (id : Nat) : queryAnswer 512 unicast id (p.service ip) = .outside := by
  have hlen : (p.service ip).host.length = (filterServiceName p.group).length := by
    show (bytesOf _).length = _
    unfold bytesOf
    rw [List.length_map]
  have hs : (p.service ip).service = mvrService := service_bytes
  have lh : (answerHeader unicast id (p.service ip)).length = 12 := rfl
  have lw : (wire mvrLabels ++ [0]).length = 24 := by decide
  have hd : 46 ∉ (p.service ip).host := no_point _
  rw [queryAnswer, hs, if_neg (by rw [show mvrService.length = 23 from rfl]; omega), show 512 - 12 = 500 from rfl, mvr_make]
  cases unicast with
  | true =>
    rw [if_pos rfl, step_some (by rw [List.length_append, lh, lw]; omega)]
    simp only
    have lp : (answerHeader true id (p.service ip) ++ (wire mvrLabels ++ [0]) ++ (net16 12 ++ net16 0x8001)).length = 40 := by
      rw [List.length_append, List.length_append, lh, lw]
      rfl
    rw [lp, makeRef_eq _ _ (by omega) (by omega), step_some (by rw [List.length_append, lp]; decide)]
    exact answerRecords_outside _ _ _ _ _ hd (by rw [List.length_append, lp]; decide) (by omega) (by omega)
  | false =>
    rw [if_neg (by decide), step_some (by rw [List.length_append, lh, lw]; omega)]
    exact answerRecords_outside _ _ _ _ _ hd (by rw [List.length_append, lh, lw]; decide) (by omega) (by omega)

example : ∃ p : Announced, (filterServiceName p.group).length = 300 :=
  ⟨⟨List.replicate 300 'a', [], (0, 0, 0, 0), 1⟩, by rw [filterServiceName, List.filter_replicate, if_pos (by decide), List.length_replicate]⟩

/-- **Violation.** The TXT record of a station whose name has more than 193 bytes is left out of its answer, without a message; then a
search of any other station that gets the answer throws an exception. -/
theorem C67_long_name_violated (text4 text6 : Bytes → Bytes) (own : List (List Char)) (p : Announced) (x : Arrival)
    (hg : filterServiceName p.group ≠ []) (hl : 193 < p.name.length) (hb : p.name.length + 2 * (filterServiceName p.group).length < 317)
    (hport : p.port < 65536) (hip : x.ip.length = 4) (hfrom : x.From p)
    (hown : chars (text4 x.ip) ++ ':' :: Str.natText p.port ∉ own) (fuel : Nat) (hf : 257 ≤ fuel) :
    search text4 text6 own fuel [(x.sender, x.packet ++ x.rest, x.packet.length)] = .ok (some (.error .thrown)) := by
  have hfit : Fits (p.service (some x.ip)) := by
    refine ⟨service_bytes, ⟨?_, ?_⟩, no_point _, hport, ?_, ?_, ?_⟩
    · show bytesOf _ ≠ []
      unfold bytesOf
      simpa using hg
    · show (bytesOf _).length < 64
      unfold bytesOf
      rw [List.length_map]
      omega
    · rintro a ⟨⟩; exact hip
    · intro a ha; exact absurd ha (by simp [Announced.service])
    · show (bytesOf _).length + 2 * (bytesOf _).length < 379
      unfold bytesOf
      rw [List.length_map, List.length_map, record_length]
      omega
  obtain ⟨u, id, hq⟩ := hfrom
  obtain ⟨q, hp, _, ha⟩ := answer_packet _ hfit u id
  rw [hq] at hp
  injection hp with hp
  injection hp with hp
  rw [← hp] at ha
  rw [search, receiveAll, receive_packet ha x.rest fuel hf, bind_ok, receiveAll, bind_ok, bind_ok]
  have := collect_found text4 text6 (fun _ => p.service none) [(x.sender, some x.ip)]
  have hd : distinct ([] : List Bytes) ([(x.sender, some x.ip)].map (·.1)) = [x.sender] := by simp [distinct]
  rw [hd] at this
  change Out.ok (stations fuel (filterQueries own (collect text4 text6 (heard (packets (fun _ => p.service none) [(x.sender, some x.ip)]))))) = _
  rw [this, List.map_singleton]
  have hips : ipsOf text4 [(x.sender, some x.ip)] x.sender = [text4 x.ip] := by simp [ipsOf, setOf, insertText]
  rw [filterQueries_all _ _ (List.pairwise_singleton _ _)]
  · rw [stations]
    have ht : (answerOf text6 (p.service none) (ipsOf text4 [(x.sender, some x.ip)] x.sender)).txt = [] := by
      show (if 255 < (bytesOf (txtRecord p.name p.uuid)).length then [] else _) = _
      rw [if_pos]
      unfold bytesOf
      rw [List.length_map, record_length]
      omega
    rw [ht]
    obtain ⟨f, rfl⟩ : ∃ f, fuel = f + 1 := ⟨fuel - 1, by omega⟩
    rw [C50_empty_violated]
  · intro r hr
    rw [List.mem_singleton.1 hr]
    refine wanted_of (pre := chars (bytesOf (filterServiceName p.group) ++ [46])) ?_ ?_ ?_
    · rw [← service_chars, ← chars_append, List.append_assoc]
      rfl
    · show (ipsOf text4 [(x.sender, some x.ip)] x.sender).map chars ≠ []
      rw [hips]
      simp
    · intro t ht
      have ht : t ∈ (ipsOf text4 [(x.sender, some x.ip)] x.sender).map chars := ht
      rw [hips, List.map_singleton, List.mem_singleton] at ht
      rw [ht]
      exact hown

example : ∃ p : Announced, filterServiceName p.group ≠ [] ∧ 193 < p.name.length ∧
    p.name.length + 2 * (filterServiceName p.group).length < 317 ∧ p.port < 65536 :=
  ⟨⟨"Show".toList, List.replicate 200 'a', (0, 0, 0, 0), 1⟩, by decide,
    by rw [List.length_replicate]; decide, by rw [List.length_replicate]; decide, by decide⟩

theorem two_filtered (pick : Item → Option (Bytes × Bytes)) (a : Bytes) (s t : Service) (h : s.host = t.host) :
    ((heard [(a, items s), (a, items t)]).filterMap fun x => (pick x.item).bind fun p =>
      if belongs x.addr p.1 a (s.host ++ 46 :: mvrService) (s.host ++ 46 :: localText) then some p.2 else none) = got pick a s ++ got pick a t := by
  have e : heard [(a, items s), (a, items t)] = (items s).map (fun i => ⟨a, i⟩) ++ (items t).map (fun i => ⟨a, i⟩) := by simp [heard]
  rw [e, List.filterMap_append, List.filterMap_map, List.filterMap_map]
  unfold got
  rw [← h]
  rfl

/-- **Violation.** Of two stations on the same computer in the same group, the one that answers later is listed with the name and the
UUID of the other one. -/
theorem C67_same_computer_violated (text4 text6 : Bytes → Bytes) (own : List (List Char)) (p q : Announced) (hp : p.Good) (hq : q.Good)
    (hg : filterServiceName p.group = filterServiceName q.group) (hport : p.port ≠ q.port)
    (x y : Arrival) (hx : x.From p) (hy : y.From q) (hxy : x.sender = y.sender) (hip : x.ip = y.ip) (h4 : x.ip.length = 4)
    (hown : ∀ port, chars (text4 x.ip) ++ ':' :: Str.natText port ∉ own) (fuel : Nat) (hf : 257 ≤ fuel) :
    ∃ s t, search text4 text6 own fuel [(x.sender, x.packet ++ x.rest, x.packet.length), (y.sender, y.packet ++ y.rest, y.packet.length)] =
      .ok (some (.ok [s, t])) ∧ s.port = p.port ∧ s.name = p.name ∧ s.uuid = p.uuid ∧ t.port = q.port ∧ t.name = p.name ∧ t.uuid = p.uuid := by
  have hlen : ∀ r : Announced, r.Good → ¬ ((r.service (some x.ip)).txt = [] ∨ 255 < (r.service (some x.ip)).txt.length) := by
    intro r hr
    have hl := hr.len
    show ¬ (bytesOf _ = [] ∨ 255 < (bytesOf _).length)
    have : (bytesOf (txtRecord r.name r.uuid)).length = r.name.length + 62 := by
      unfold bytesOf
      rw [List.length_map, record_length]
    rintro (h | h)
    · rw [h] at this; simp at this
    · omega
  have hread : ∀ (r : Announced) (z : Arrival), r.Good → z.From r → z.ip = x.ip →
      receive (z.packet ++ z.rest) z.packet.length fuel = .ok (items (r.service (some x.ip))) := by
    intro r z hr hz hi
    obtain ⟨u, id, hz⟩ := hz
    obtain ⟨k, hk, _, ha⟩ := answer_packet _ (hr.fits (some z.ip) (by rintro a ⟨⟩; rw [hi]; exact h4)) u id
    rw [hz] at hk
    injection hk with hk
    injection hk with hk
    rw [← hk, hi] at ha
    exact receive_packet ha z.rest fuel hf
  have hh : (p.service (some x.ip)).host = (q.service (some x.ip)).host := congrArg bytesOf hg
  let h := heard [(x.sender, items (p.service (some x.ip))), (x.sender, items (q.service (some x.ip)))]
  let full := (p.service (some x.ip)).host ++ 46 :: mvrService
  let target := (p.service (some x.ip)).host ++ 46 :: localText
  have hsrv : h.filterMap Heard.srv? = [(x.sender, full, p.port, target), (x.sender, full, q.port, target)] := by
    have e : h = (items (p.service (some x.ip))).map (fun i => ⟨x.sender, i⟩) ++ (items (q.service (some x.ip))).map (fun i => ⟨x.sender, i⟩) := by
      simp [h, heard]
    rw [e, List.filterMap_append, items_srv, items_srv, ← hh]
    rfl
  have hans : ∀ port, answerFor text4 text6 h x.sender full port target =
      { serviceName := chars full, hostname := chars full, ipV4 := [chars (text4 x.ip)], ipV6 := [], port := port,
        txt := txtRecord p.name p.uuid } := by
    intro port
    unfold answerFor firstOf addresses
    simp only [h, full, target, ← List.head?_filterMap, two_filtered _ _ _ _ hh, got_ptr, got_a, got_aaaa, got_txt, if_neg (hlen p hp)]
    congr 1
    · change (setOf [text4 x.ip, text4 x.ip]).map chars = _
      rw [setOf_eq (t := text4 x.ip) (by simp) (by simp)]
      rfl
    · exact chars_bytesOf _ (record_range _ _ fun c hc => (hp.name c hc).2)
  have hcol : collect text4 text6 h = [answerFor text4 text6 h x.sender full p.port target, answerFor text4 text6 h x.sender full q.port target] := by
    unfold collect
    rw [hsrv]
    have hne : (x.sender, full, q.port, target) ∉ [(x.sender, full, p.port, target)] := by
      rw [List.mem_singleton]
      intro h
      injection h with _ h
      injection h with _ h
      injection h with h _
      exact hport h.symm
    rw [distinct, if_neg (by simp), distinct, if_neg hne, distinct]
    rfl
  have htxt := txtLoop_more (txtLoop_announce p.name p.uuid (by have := hp.len; omega)) (show 2 ≤ fuel by omega)
  rw [if_neg hp.key] at htxt
  have hend : search text4 text6 own fuel [(x.sender, x.packet ++ x.rest, x.packet.length), (y.sender, y.packet ++ y.rest, y.packet.length)] =
      .ok (stations fuel (filterQueries own (collect text4 text6 h))) := by
    rw [search, receiveAll, hread p x hp hx rfl, bind_ok, receiveAll, hread q y hq hy hip.symm, bind_ok, receiveAll, bind_ok, bind_ok, bind_ok, ← hxy]
  rw [hend, hcol, hans, hans, filterQueries_all]
  · rw [stations]
    simp only
    rw [htxt]
    simp only
    rw [stations]
    simp only
    rw [htxt]
    simp only
    rw [stations]
    simp only
    refine ⟨_, _, rfl, rfl, rfl, ?_, rfl, rfl, ?_⟩ <;>
    · unfold station
      simp only
      rw [Uuid.C09_mvr_words]
  · rw [List.pairwise_pair]
    intro e
    exact hport (congrArg (·.1) e)
  · have : ∀ port, Wanted own ⟨chars full, chars full, [chars (text4 x.ip)], [], port, txtRecord p.name p.uuid⟩ := by
      intro port
      refine wanted_of (pre := chars (bytesOf (filterServiceName p.group) ++ [46])) ?_ (by simp) ?_
      · rw [← service_chars, ← chars_append, List.append_assoc]
        rfl
      · intro t ht
        rw [List.mem_singleton.1 ht]
        exact hown port
    intro r hr
    rcases List.mem_cons.1 hr with rfl | hr
    · exact this _
    · rw [List.mem_singleton.1 hr]
      exact this _

example : ∃ p q : Announced, p.Good ∧ q.Good ∧ filterServiceName p.group = filterServiceName q.group ∧ p.port ≠ q.port ∧ p.name ≠ q.name :=
  ⟨twoStations [65], { twoStations [66] with port := 51001 }, twoStations_good _,
    { twoStations_good [66] with port := by decide }, by decide, by decide, by decide⟩

end Verif.Mdns
