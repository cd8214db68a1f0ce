import Verif.Mdns.Write

/-!
# Lemmas: the answer of a station
-/

namespace Verif.Mdns

/-- The labels of "_mvrxchange._tcp.local." -/
def mvrLabels : List Bytes :=
  [[95, 109, 118, 114, 120, 99, 104, 97, 110, 103, 101], [95, 116, 99, 112], [108, 111, 99, 97, 108]]

/-- "_mvrxchange._tcp.local.", the service of MVR-xchange. -/
def mvrService : Bytes :=
  [95, 109, 118, 114, 120, 99, 104, 97, 110, 103, 101, 46, 95, 116, 99, 112, 46, 108, 111, 99, 97, 108, 46]

/-- "local." -/
def localText : Bytes := [108, 111, 99, 97, 108, 46]

theorem mvr_text : text mvrLabels = mvrService := by decide
theorem mvr_wire_length : (wire mvrLabels).length = 23 := by decide
theorem mvr_make : make 500 mvrService = some (wire mvrLabels ++ [0]) := by decide +kernel

theorem mvr_labels : ∀ l ∈ mvrLabels, Label l := by
  intro l hl
  simp only [mvrLabels, List.mem_cons, List.not_mem_nil, or_false] at hl
  rcases hl with rfl | rfl | rfl <;> exact ⟨by simp, by decide⟩

/-- The name of the service at offset 12 can be referred to, and its last label as well. -/
theorem mvr_at {p : Bytes} (h : Has p 12 (wire mvrLabels ++ [0])) :
    RefTo p 12 mvrLabels ∧ RefTo p 29 [[108, 111, 99, 97, 108]] ∧ NameAt p 12 mvrLabels 36 := by
  have h0 := name_wire mvrLabels mvr_labels h
  have e : wire mvrLabels ++ [0] = (BitVec.ofNat 8 11 :: [95, 109, 118, 114, 120, 99, 104, 97, 110, 103, 101]) ++
      ((BitVec.ofNat 8 4 :: [95, 116, 99, 112]) ++ ((BitVec.ofNat 8 5 :: [108, 111, 99, 97, 108]) ++ [0])) := by decide
  rw [e] at h
  have h1 := h.left
  have h2 := h.right.left
  have h3 := h.right.right.left
  have h4 := h.right.right.right
  have n4 : NameAt p 35 [] 36 := .stop h4
  have n3 : NameAt p 29 [[108, 111, 99, 97, 108]] 36 := .label (by simp) (by decide) h3 n4
  have n2 : NameAt p 24 [[95, 116, 99, 112], [108, 111, 99, 97, 108]] 36 := .label (by simp) (by decide) h2 n3
  refine ⟨⟨by omega, _, _, _, rfl, by simp, by decide, h1, n2⟩, ⟨by omega, _, _, _, rfl, by simp, by decide, h3, n4⟩, ?_⟩
  rwa [mvr_wire_length] at h0

/-- The records of the addresses and the TXT record of an answer. -/
def extraItems (s : Service) : List Item :=
  (s.ipv4.map (Item.a (s.host ++ 46 :: localText))).toList ++
  (s.ipv6.map (Item.aaaa (s.host ++ 46 :: localText))).toList ++
  (if s.txt = [] ∨ 255 < s.txt.length then [] else [.txt (s.host ++ 46 :: mvrService) s.txt])

theorem address_step {p : Bytes} {host rclass ttl type capacity : Nat} {ls : List Bytes} {ip : Option Bytes} {mk : Bytes → Bytes → Item}
    (hr : RefTo p host ls) (hl : (text ls).length ≤ 256)
    (hmk : ∀ a, ip = some a → a.length < 65536 ∧ type < 65536 ∧ ∀ q : Bytes, Has q (p.length + 12) a →
      DataAt q (p.length + 12) (p.length + 12 + a.length) (text ls) type (mk (text ls) a))
    (hc : p.length + 12 + (ip.getD []).length < capacity) :
    ∃ q, (∀ f, addAddress capacity host rclass ttl type ip p f = f (p ++ q)) ∧
      RecordsAt (p ++ q) p.length (ip.map (mk (text ls))).toList (p ++ q).length ∧
      q.length ≤ 12 + (ip.getD []).length ∧ (ip = none → q = []) := by
  cases ip with
  | none => exact ⟨[], fun f => by simp [addAddress], by simpa using RecordsAt.none, by simp, fun _ => rfl⟩
  | some a =>
    obtain ⟨h1, h2, h3⟩ := hmk a rfl
    simp only [Option.getD_some] at hc
    refine ⟨net16 (0xC000 + host) ++ body type rclass ttl a, ?_, ?_, ?_, by simp⟩
    · intro f
      rw [addAddress, makeRef_eq _ _ (by omega) hr.1, step_some (by rw [List.length_append, show (net16 (0xC000 + host)).length = 2 from rfl]; omega)]
      simp [body]
    · have hn := ref_end hr hl
      have e : p.length + 12 = (p ++ net16 (0xC000 + host)).length + 10 := by rw [List.length_append]; rfl
      rw [e] at h3
      have := record_end (rclass := rclass) (ttl := ttl) hn h2 h1 (h3 _ (body_has _ type rclass ttl a).2)
      rw [List.append_assoc] at this
      exact .one this .none
    · rw [List.length_append, body_length, show (net16 (0xC000 + host)).length = 2 from rfl]
      simp
      omega

theorem text_full (host : Bytes) : text (host :: mvrLabels) = host ++ 46 :: mvrService := by
  rw [← mvr_text]
  simp [text]

theorem text_local (host : Bytes) : text [host, [108, 111, 99, 97, 108]] = host ++ 46 :: localText := by
  simp [text, localText]

/-- What a station must be like for its answer to fit into the buffer of 512 bytes. -/
structure Fits (s : Service) : Prop where
  service : s.service = mvrService
  label : Label s.host
  dot : (46 : Byte) ∉ s.host
  port : s.port < 65536
  ipv4 : ∀ a, s.ipv4 = some a → a.length = 4
  ipv6 : ∀ a, s.ipv6 = some a → a.length = 16
  room : s.txt.length + 2 * s.host.length < 379

theorem records_answer (s : Service) (hf : Fits s) (rclass ttl : Nat) (p : Bytes) (hp : 36 ≤ p.length ∧ p.length ≤ 42)
    (hs : Has p 12 (wire mvrLabels ++ [0])) (off : Nat) (hn : NameIs p off mvrService p.length) :
    ∃ q o, answerRecords 512 rclass ttl s 29 p = .ok (some (p ++ q)) ∧
      RecordsAt (p ++ q) off [.ptr mvrService (s.host ++ 46 :: mvrService)] o ∧
      RecordsAt (p ++ q) o ([.srv (s.host ++ 46 :: mvrService) s.port (s.host ++ 46 :: localText)] ++ extraItems s) (p ++ q).length ∧
      (p ++ q).length ≤ 512 := by
  obtain ⟨r12, r29, n12⟩ := mvr_at hs
  have hv := hf.label
  have h64 := hv.2
  have hroom := hf.room
  have hw : ∀ to, (wire [s.host] ++ net16 (0xC000 + to)).length = s.host.length + 3 := by intro to; simp [wire, net16]
  have l16 : ∀ x : Nat, (net16 x).length = 2 := fun _ => rfl
  have tf : (text (s.host :: mvrLabels)).length ≤ 256 := by rw [text_full]; simp [mvrService]; omega
  have tl : (text [s.host, [108, 111, 99, 97, 108]]).length ≤ 256 := by rw [text_local]; simp [localText]; omega
  -- the PTR record
  obtain ⟨d1, hd1⟩ : ∃ d, d = wire [s.host] ++ net16 (0xC000 + 12) := ⟨_, rfl⟩
  have ld1 : d1.length = s.host.length + 3 := by rw [hd1, hw]
  obtain ⟨p1, hp1⟩ : ∃ x, x = p ++ body 12 rclass ttl d1 := ⟨_, rfl⟩
  have lp1 : p1.length = p.length + 13 + s.host.length := by rw [hp1, List.length_append, body_length, ld1]; omega
  have hd1at : Has p1 (p.length + 10) (wire [s.host] ++ net16 (0xC000 + 12)) := by rw [← hd1, hp1]; exact (body_has p 12 rclass ttl d1).2
  obtain ⟨rf, nf⟩ := host_name hv (by rw [hp1]; exact r12.app _ : RefTo p1 12 mvrLabels) (by omega) hd1at
  have rec1 : RecordAt p1 off (.ptr mvrService (s.host ++ 46 :: mvrService)) p1.length := by
    have : DataAt p1 (p.length + 10) (p.length + 10 + d1.length) mvrService 12 (.ptr mvrService (s.host ++ 46 :: mvrService)) := by
      refine .ptr ⟨_, ?_, text_full s.host, by rw [← text_full]; exact tf⟩
      rw [ld1, show p.length + 10 + (s.host.length + 3) = p.length + 10 + s.host.length + 3 from by omega]
      exact nf
    rw [hp1] at this ⊢
    exact record_end hn (by omega) (by omega) this
  -- the SRV record
  obtain ⟨p2, hp2⟩ : ∃ x, x = p1 ++ net16 (0xC000 + (p.length + 10)) := ⟨_, rfl⟩
  have lp2 : p2.length = p1.length + 2 := by rw [hp2, List.length_append, l16]
  obtain ⟨d2, hd2⟩ : ∃ d, d = wire [s.host] ++ net16 (0xC000 + 29) := ⟨_, rfl⟩
  have ld2 : d2.length = s.host.length + 3 := by rw [hd2, hw]
  obtain ⟨e2, he2⟩ : ∃ e, e = (net16 0 ++ net16 0 ++ net16 s.port) ++ d2 := ⟨_, rfl⟩
  have le2 : e2.length = s.host.length + 9 := by rw [he2, List.length_append, ld2]; simp only [List.length_append, l16]; omega
  obtain ⟨p3, hp3⟩ : ∃ x, x = p2 ++ body 33 rclass ttl e2 := ⟨_, rfl⟩
  have lp3 : p3.length = p2.length + 19 + s.host.length := by rw [hp3, List.length_append, body_length, le2]; omega
  have he2at : Has p3 (p2.length + 10) ((net16 0 ++ net16 0 ++ net16 s.port) ++ d2) := by
    rw [← he2, hp3]; exact (body_has p2 33 rclass ttl e2).2
  have hd2at : Has p3 (p2.length + 16) (wire [s.host] ++ net16 (0xC000 + 29)) := by
    have := he2at.right
    rwa [hd2] at this
  have r29' : RefTo p3 29 [[108, 111, 99, 97, 108]] := by rw [hp3, hp2, hp1]; exact ((r29.app _).app _).app _
  obtain ⟨rh, nh⟩ := host_name hv r29' (by omega) hd2at
  have hname2 : NameIs p2 p1.length (s.host ++ 46 :: mvrService) p2.length := by
    have := ref_end rf tf
    rw [← hp2, text_full] at this
    exact this
  have rec2 : RecordAt p3 p1.length (.srv (s.host ++ 46 :: mvrService) s.port (s.host ++ 46 :: localText)) p3.length := by
    have : DataAt p3 (p2.length + 10) (p2.length + 10 + e2.length) (s.host ++ 46 :: mvrService) 33
        (.srv (s.host ++ 46 :: mvrService) s.port (s.host ++ 46 :: localText)) := by
      refine .srv he2at.left hf.port ⟨_, ?_, text_local s.host, by rw [← text_local]; exact tl⟩ (by simp)
      rw [le2, show p2.length + 10 + (s.host.length + 9) = p2.length + 16 + s.host.length + 3 from by omega]
      exact nh
    rw [hp3] at this ⊢
    exact record_end hname2 (by omega) (by omega) this
  -- the addresses
  have l4 : (s.ipv4.getD []).length ≤ 4 := by
    cases h : s.ipv4 with
    | none => simp
    | some a => simp [hf.ipv4 a h]
  have l6 : (s.ipv6.getD []).length ≤ 16 := by
    cases h : s.ipv6 with
    | none => simp
    | some a => simp [hf.ipv6 a h]
  obtain ⟨q4, k4, rec4, lq4, -⟩ := address_step (rclass := rclass) (ttl := ttl) (type := 1) (capacity := 512) (ip := s.ipv4) (mk := .a) rh tl
    (by
      intro a ha
      have := hf.ipv4 a ha
      exact ⟨by omega, by omega, fun q hq => .a hq this (by omega)⟩) (by omega)
  have lp4 : (p3 ++ q4).length ≤ p3.length + 16 := by rw [List.length_append]; omega
  obtain ⟨q6, k6, rec6, lq6, -⟩ := address_step (rclass := rclass) (ttl := ttl) (type := 28) (capacity := 512) (ip := s.ipv6) (mk := .aaaa)
    (rh.app q4) tl
    (by
      intro a ha
      have := hf.ipv6 a ha
      exact ⟨by omega, by omega, fun q hq => .aaaa hq this (by omega)⟩) (by omega)
  have lp6 : (p3 ++ q4 ++ q6).length ≤ p3.length + 44 := by rw [List.length_append]; omega
  -- the TXT record
  have rf' : RefTo (p3 ++ q4 ++ q6) (p.length + 10) (s.host :: mvrLabels) := by
    rw [hp3, hp2]; exact (((rf.app _).app _).app _).app _
  obtain ⟨qt, kt, rect, lqt⟩ : ∃ qt, addTxt 512 (p.length + 10) rclass ttl s.txt (p3 ++ q4 ++ q6) = .ok (some (p3 ++ q4 ++ q6 ++ qt)) ∧
      RecordsAt (p3 ++ q4 ++ q6 ++ qt) (p3 ++ q4 ++ q6).length
        (if s.txt = [] ∨ 255 < s.txt.length then [] else [.txt (s.host ++ 46 :: mvrService) s.txt]) (p3 ++ q4 ++ q6 ++ qt).length ∧
      qt.length ≤ 12 + s.txt.length := by
    by_cases ht : s.txt = [] ∨ 255 < s.txt.length
    · refine ⟨[], by rw [addTxt, if_pos ht, List.append_nil], ?_, by simp⟩
      rw [if_pos ht, List.append_nil]
      exact .none
    · refine ⟨net16 (0xC000 + (p.length + 10)) ++ body 16 rclass ttl s.txt, ?_, ?_, ?_⟩
      · rw [addTxt, if_neg ht, makeRef_eq _ _ (by omega) (by omega), step_some (by rw [List.length_append (as := p3 ++ q4 ++ q6), l16]; omega)]
        simp [body]
      · rw [if_neg ht]
        have hn' := ref_end rf' tf
        rw [text_full] at hn'
        have hd : DataAt (p3 ++ q4 ++ q6 ++ net16 (0xC000 + (p.length + 10)) ++ body 16 rclass ttl s.txt)
            ((p3 ++ q4 ++ q6 ++ net16 (0xC000 + (p.length + 10))).length + 10)
            ((p3 ++ q4 ++ q6 ++ net16 (0xC000 + (p.length + 10))).length + 10 + s.txt.length) (s.host ++ 46 :: mvrService) 16
            (.txt (s.host ++ 46 :: mvrService) s.txt) := .txt (body_has _ 16 rclass ttl s.txt).2 rfl
        have := record_end hn' (by omega) (by omega) hd
        rw [List.append_assoc (p3 ++ q4 ++ q6)] at this
        exact .one this .none
      · rw [List.length_append, body_length, l16]; omega
  have ltot : (p3 ++ q4 ++ q6 ++ qt).length ≤ 512 := by rw [List.length_append]; omega
  -- all together
  have hall : p3 ++ q4 ++ q6 ++ qt = p ++ (body 12 rclass ttl d1 ++ net16 (0xC000 + (p.length + 10)) ++ body 33 rclass ttl e2 ++ q4 ++ q6 ++ qt) := by
    rw [hp3, hp2, hp1]; simp
  refine ⟨_, p1.length, ?_, ?_, ?_, by rw [← hall]; exact ltot⟩
  · rw [← hall, answerRecords]
    simp only
    rw [makeWithRef_host _ _ _ hf.dot hv.1 (by omega) (by omega), bind_ok]
    simp only [Option.getD_some, Option.map_some]
    rw [← hd1, show net16 12 ++ net16 rclass ++ net32 ttl ++ net16 d1.length ++ d1 = body 12 rclass ttl d1 from rfl,
      step_some (by rw [← hp1]; omega), ← hp1, makeRef_eq _ _ (by omega) (by omega), step_some (by rw [← hp2]; omega), ← hp2,
      makeWithRef_host _ _ _ hf.dot hv.1 (by omega) (by omega), bind_ok]
    simp only [Option.getD_some, Option.map_some]
    have hb : net16 33 ++ net16 rclass ++ net32 ttl ++ net16 (6 + d2.length) ++ net16 0 ++ net16 0 ++ net16 s.port ++ d2 = body 33 rclass ttl e2 := by
      rw [body, le2, ld2, he2, show 6 + (s.host.length + 3) = s.host.length + 9 from by omega]
      simp only [List.append_assoc]
    rw [← hd2, hb, step_some (by rw [← hp3]; omega), ← hp3, k4, k6, kt]
  · rw [← hall, hp3, hp2]
    exact .one ((((rec1.app _).app _).app _).app _ |>.app _) .none
  · rw [← hall]
    have hx : RecordsAt (p3 ++ q4 ++ q6 ++ qt) p3.length (extraItems s) (p3 ++ q4 ++ q6 ++ qt).length := by
      rw [extraItems]
      refine RecordsAt.trans (mid := (p3 ++ q4 ++ q6).length) (RecordsAt.trans (mid := (p3 ++ q4).length) ?_ ?_) rect
      · rw [text_local] at rec4
        exact (rec4.app q6).app qt
      · rw [text_local] at rec6
        exact rec6.app qt
    exact .one ((rec2.app q4).app q6 |>.app qt) hx

theorem extraItems_length (s : Service) : (extraItems s).length =
    (if s.ipv4.isSome then 1 else 0) + (if s.ipv6.isSome then 1 else 0) + (if s.txt = [] ∨ 255 < s.txt.length then 0 else 1) := by
  unfold extraItems
  rw [List.length_append, List.length_append]
  congr 1
  · congr 1
    · cases s.ipv4 <;> rfl
    · cases s.ipv6 <;> rfl
  · split <;> rfl

/-- The answer of a station that fits: a packet with its records, in at most 512 bytes. -/
theorem answer_packet (s : Service) (hf : Fits s) (unicast : Bool) (queryId : Nat) :
    ∃ p, queryAnswer 512 unicast queryId s = .ok (some p) ∧ p.length ≤ 512 ∧
      IsAnswer p (.ptr mvrService (s.host ++ 46 :: mvrService) ::
        .srv (s.host ++ 46 :: mvrService) s.port (s.host ++ 46 :: localText) :: extraItems s) := by
  have h64 := hf.label.2
  have hs : ¬ 512 < 12 + 32 + s.service.length + s.host.length := by rw [hf.service]; simp [mvrService]; omega
  have hn : Has (answerHeader unicast queryId s ++ (wire mvrLabels ++ [0])) 12 (wire mvrLabels ++ [0]) := has_end _ _
  have lh : (answerHeader unicast queryId s).length = 12 := rfl
  have lw : (wire mvrLabels ++ [0]).length = 24 := by decide
  have hcount : (if s.ipv4.isSome then 1 else 0) + (if s.ipv6.isSome then 1 else 0) + (if s.txt = [] ∨ 255 < s.txt.length then 0 else 1) ≤ 3 := by
    have : ∀ (c : Prop) [Decidable c], (if c then 1 else 0 : Nat) ≤ 1 := by intro c _; split <;> omega
    have a := this (s.ipv4.isSome = true)
    have b := this (s.ipv6.isSome = true)
    have c : (if s.txt = [] ∨ 255 < s.txt.length then 0 else 1 : Nat) ≤ 1 := by split <;> omega
    omega
  have header : ∀ q : Bytes, HeaderAt (answerHeader unicast queryId s ++ q) (if unicast then queryId else 0) 0x8400 (if unicast then 1 else 0)
      [Item.ptr mvrService (s.host ++ 46 :: mvrService)].length ([] : List Item).length
      ([Item.srv (s.host ++ 46 :: mvrService) s.port (s.host ++ 46 :: localText)] ++ extraItems s).length := by
    intro q
    have e : ([Item.srv (s.host ++ 46 :: mvrService) s.port (s.host ++ 46 :: localText)] ++ extraItems s).length =
        1 + (if s.ipv4.isSome then 1 else 0) + (if s.ipv6.isSome then 1 else 0) + (if s.txt = [] ∨ 255 < s.txt.length then 0 else 1) := by
      rw [List.length_append, extraItems_length]
      simp only [List.length_cons, List.length_nil]
      omega
    refine ⟨by omega, by cases unicast <;> decide, by simp, by simp, by rw [e]; omega, ?_⟩
    rw [e]
    exact ⟨[], q, rfl, rfl⟩
  cases unicast with
  | true =>
    obtain ⟨p, hp⟩ : ∃ p, p = answerHeader true queryId s ++ (wire mvrLabels ++ [0]) ++ (net16 12 ++ net16 0x8001) := ⟨_, rfl⟩
    have lp : p.length = 40 := by rw [hp, List.length_append, List.length_append, lh, lw]; rfl
    obtain ⟨r12, -, n12⟩ := mvr_at hn
    have r12' : RefTo p 12 mvrLabels := by rw [hp]; exact r12.app _
    have hname : NameIs (p ++ net16 (0xC000 + 12)) p.length mvrService (p ++ net16 (0xC000 + 12)).length := by
      have := ref_end r12' (by rw [mvr_text]; decide)
      rwa [mvr_text] at this
    obtain ⟨q, o, hq, hr1, hr2, hl⟩ := records_answer s hf 0x8001 10 (p ++ net16 (0xC000 + 12))
      (by rw [List.length_append, lp, show (net16 (0xC000 + 12)).length = 2 from rfl]; omega)
      (by rw [hp]; exact (hn.app _).app _) p.length hname
    refine ⟨p ++ net16 (0xC000 + 12) ++ q, ?_, hl, ?_⟩
    · rw [queryAnswer, if_neg hs, if_pos rfl, hf.service, show 512 - 12 = 500 from rfl, mvr_make,
        step_some (by rw [List.length_append, lh, lw]; omega)]
      simp only
      rw [← hp, lp, makeRef_eq _ _ (by omega) (by omega),
        step_some (by rw [List.length_append, lp, show (net16 (0xC000 + 12)).length = 2 from rfl]; omega)]
      have : (answerHeader true queryId s ++ (wire mvrLabels ++ [0])).length - 7 = 29 := by rw [List.length_append, lh, lw]
      rw [this, hq]
    · refine ⟨queryId, 0x8400, 1, [_], [], _, p.length, o, o, _, rfl, ?_, Or.inr ⟨rfl, mvrService, 12, 0x8001, ?_⟩, hr1, .none, hr2⟩
      · rw [hp, List.append_assoc, List.append_assoc, List.append_assoc]
        exact header _
      · refine ⟨36, ⟨mvrLabels, ?_, mvr_text, by decide⟩, by omega, by omega, ?_, by rw [lp]⟩
        · rw [hp]
          exact ((n12.app _).app _).app _
        · rw [hp]
          have := has_end (answerHeader true queryId s ++ (wire mvrLabels ++ [0])) (net16 12 ++ net16 0x8001)
          rw [List.length_append, lh, lw] at this
          exact (this.app _).app _
  | false =>
    obtain ⟨r12, -, n12⟩ := mvr_at hn
    have ln : (answerHeader false queryId s ++ (wire mvrLabels ++ [0])).length = 36 := by rw [List.length_append, lh, lw]
    obtain ⟨q, o, hq, hr1, hr2, hl⟩ := records_answer s hf 1 60 (answerHeader false queryId s ++ (wire mvrLabels ++ [0]))
      (by rw [ln]; omega) hn 12 ⟨mvrLabels, by rw [ln]; exact n12, mvr_text, by decide⟩
    refine ⟨answerHeader false queryId s ++ (wire mvrLabels ++ [0]) ++ q, ?_, hl, ?_⟩
    · rw [queryAnswer, if_neg hs, if_neg (by simp), hf.service, show 512 - 12 = 500 from rfl, mvr_make, step_some (by rw [ln]; omega), ln, hq]
    · refine ⟨0, 0x8400, 0, [_], [], _, 12, o, o, _, rfl, ?_, Or.inl ⟨rfl, rfl⟩, hr1, .none, hr2⟩
      rw [List.append_assoc]
      exact header _

end Verif.Mdns
