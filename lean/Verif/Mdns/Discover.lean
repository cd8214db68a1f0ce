import Verif.Mdns.Search
import Verif.Mdns.Found
import Verif.Mdns.Ask
import Verif.Xchg.TxtProps
import Verif.Xchg.ServiceProps

/-!
# Lemmas: a station that announces itself is found
-/

namespace Verif.Mdns

open Verif.Xchg

/-- A character that is one byte and not the final zero. -/
def OneByte (c : Char) : Prop := c ≠ '\x00' ∧ c.toNat < 256

/-- A station whose data fits in its packets: a group name of 1 to 63 allowed characters, a name of at most 193 bytes (both together
within the 512 bytes of the packet) that does not contain "StationName=". -/
structure Announced.Good (p : Announced) : Prop where
  group : filterServiceName p.group ≠ []
  short : (filterServiceName p.group).length < 64
  name : ∀ c ∈ p.name, OneByte c
  len : p.name.length ≤ 193
  both : p.name.length + 2 * (filterServiceName p.group).length < 317
  key : ¬ "StationName=".toList <:+: p.name
  port : p.port < 65536

theorem chars_bytesOf (l : List Char) (h : ∀ c ∈ l, c.toNat < 256) : chars (bytesOf l) = l := by
  unfold chars bytesOf
  rw [List.map_map]
  conv => rhs; rw [← List.map_id l]
  refine List.map_congr_left fun c hc => ?_
  have := h c hc
  show Char.ofNat (BitVec.ofNat 8 c.toNat).toNat = c
  rw [BitVec.toNat_ofNat, Nat.mod_eq_of_lt this, Char.ofNat_toNat]

theorem chars_append (a b : Bytes) : chars (a ++ b) = chars a ++ chars b := by simp [chars]

theorem service_bytes : bytesOf serviceText = mvrService := by decide +kernel

theorem service_chars : chars mvrService = serviceText := by decide +kernel

theorem serviceChar_range {c : Char} (h : serviceChar c = true) : c.toNat < 128 ∧ c ≠ '.' ∧ c ≠ '\x00' := by
  unfold serviceChar at h
  simp only [Bool.or_eq_true, Bool.and_eq_true, decide_eq_true_eq, beq_iff_eq] at h
  have le : ∀ a b : Char, a ≤ b → a.toNat ≤ b.toNat := fun a b h => h
  rcases h with (((⟨h1, h2⟩ | ⟨h1, h2⟩) | ⟨h1, h2⟩) | rfl) | rfl
  · have h1 : 97 ≤ c.toNat := le _ _ h1
    have h2 : c.toNat ≤ 122 := le _ _ h2
    exact ⟨by omega, fun e => by rw [e] at h1; exact absurd h1 (by decide), fun e => by rw [e] at h1; exact absurd h1 (by decide)⟩
  · have h1 : 65 ≤ c.toNat := le _ _ h1
    have h2 : c.toNat ≤ 90 := le _ _ h2
    exact ⟨by omega, fun e => by rw [e] at h1; exact absurd h1 (by decide), fun e => by rw [e] at h1; exact absurd h1 (by decide)⟩
  · have h1 : 48 ≤ c.toNat := le _ _ h1
    have h2 : c.toNat ≤ 57 := le _ _ h2
    exact ⟨by omega, fun e => by rw [e] at h1; exact absurd h1 (by decide), fun e => by rw [e] at h1; exact absurd h1 (by decide)⟩
  · exact ⟨by decide, by decide, by decide⟩
  · exact ⟨by decide, by decide, by decide⟩

theorem filter_range (g : List Char) : ∀ c ∈ filterServiceName g, c.toNat < 128 ∧ c ≠ '.' ∧ c ≠ '\x00' := fun _ h =>
  serviceChar_range (List.mem_filter.1 h).2

theorem no_point (g : List Char) : (46 : Byte) ∉ bytesOf (filterServiceName g) := by
  intro h
  obtain ⟨c, hc, e⟩ := List.mem_map.1 h
  obtain ⟨h1, h2, _⟩ := filter_range g c hc
  have e' : (BitVec.ofNat 8 c.toNat).toNat = 46 := by rw [e]; rfl
  rw [BitVec.toNat_ofNat, Nat.mod_eq_of_lt (by omega)] at e'
  refine h2 ?_
  rw [← Char.ofNat_toNat c, e']

theorem hexByte_range (b : Byte) : ∀ c ∈ Uuid.getPieceAsText b, c.toNat < 128 := by
  have key : ∀ n : Fin 256, ∀ c ∈ Uuid.getPieceAsText (BitVec.ofFin n), c.toNat < 128 := by decide +kernel
  exact key b.toFin

theorem uuid_range (d : List Byte) : ∀ c ∈ Uuid.convertToText d, c.toNat < 128 := by
  unfold Uuid.convertToText Uuid.toText
  simp only [List.mem_flatten, List.mem_cons, List.not_mem_nil, or_false]
  rintro c ⟨l, hl, hS⟩
  rcases hl with rfl | rfl | rfl | rfl | rfl | rfl | rfl | rfl | rfl | rfl | rfl | rfl | rfl | rfl | rfl | rfl | rfl | rfl | rfl | rfl | rfl | rfl
  all_goals first
    | exact hexByte_range _ c hS
    | (revert c; decide)

theorem record_length (name : List Char) (uuid : Words) : (txtRecord name uuid).length = name.length + 62 := by
  unfold txtRecord
  simp only [List.length_append]
  rw [show (Uuid.convertToText (Uuid.ofWords uuid.1 uuid.2.1 uuid.2.2.1 uuid.2.2.2)).length = 36 from rfl,
    show "StationName=".toList.length = 12 from rfl, show "StationUUID=".toList.length = 12 from rfl]
  simp only [List.length_cons, List.length_nil]
  omega

theorem ofNat_range (n : Nat) (h : n < 256) : (Char.ofNat n).toNat < 256 := by
  have : ∀ n : Fin 256, (Char.ofNat n.val).toNat < 256 := by decide +kernel
  exact this ⟨n, h⟩

theorem record_range (name : List Char) (uuid : Words) (h : ∀ c ∈ name, c.toNat < 256) : ∀ c ∈ txtRecord name uuid, c.toNat < 256 := by
  intro c hc
  unfold txtRecord at hc
  simp only [List.mem_append, List.mem_singleton] at hc
  rcases hc with ((rfl | hc | hc) | rfl) | hc | hc
  · exact ofNat_range _ (by omega)
  · revert c; decide
  · exact h c hc
  · exact ofNat_range _ (by omega)
  · revert c; decide
  · exact Nat.lt_trans (uuid_range _ c hc) (by omega)

theorem Announced.Good.fits {p : Announced} (h : p.Good) (ip : Option Bytes) (hip : ∀ a, ip = some a → a.length = 4) : Fits (p.service ip) where
  service := service_bytes
  label := by
    refine ⟨?_, ?_⟩
    · show bytesOf _ ≠ []
      unfold bytesOf
      simp only [ne_eq, List.map_eq_nil_iff]
      exact h.group
    · show (bytesOf _).length < 64
      unfold bytesOf
      rw [List.length_map]
      exact h.short
  dot := no_point _
  port := h.port
  ipv4 := hip
  ipv6 := by intro a ha; exact absurd ha (by simp [Announced.service])
  room := by
    have := h.both
    show (bytesOf _).length + 2 * (bytesOf _).length < 379
    unfold bytesOf
    rw [List.length_map, List.length_map, record_length]
    omega

theorem txtLoop_more {txt : List Char} {f f' ptr : Nat} {found : List Char × List Char} {r} (h : txtLoop txt f ptr found = some r) (hf : f ≤ f') :
    txtLoop txt f' ptr found = some r := by
  induction f generalizing f' ptr found with
  | zero => simp [txtLoop] at h
  | succ f ih =>
    obtain ⟨g, rfl⟩ : ∃ g, f' = g + 1 := ⟨f' - 1, by omega⟩
    rw [txtLoop] at h ⊢
    simp only at h ⊢
    split
    · rename_i hl
      rw [if_pos hl] at h
      exact h
    · rename_i hl
      rw [if_neg hl] at h
      split
      · rename_i hn
        rw [hn] at h
        simp only at h
        split
        · rename_i hp
          rw [if_pos hp] at h
          exact ih h (by omega)
        · rename_i hp
          rw [if_neg hp] at h
          exact h
      · rename_i e he
        rw [he] at h
        simp only at h
        split
        · rename_i hp
          rw [if_pos hp] at h
          exact ih h (by omega)
        · rename_i hp
          rw [if_neg hp] at h
          exact h

theorem filterQueries_all (own : List (List Char)) (l : List Answer) (hk : l.Pairwise fun a b => a.key ≠ b.key) (hw : ∀ a ∈ l, Wanted own a) :
    filterQueries own l = l := by
  have : ∀ out : List Answer, (out ++ l).Pairwise (fun a b => a.key ≠ b.key) → 
      l.foldl (fun out a => if accepts own out a then out ++ [a] else out) out = out ++ l := by
    clear hk
    induction l with
    | nil => intro out _; simp
    | cons a l ih =>
      intro out hp
      have hacc : accepts own out a = true := by
        rw [accepts_iff]
        refine ⟨fun r hr => ?_, hw a (by simp)⟩
        exact (List.pairwise_append.1 hp).2.2 r hr a (by simp)
      rw [List.foldl_cons, if_pos hacc, ih (fun b hb => hw b (by simp [hb])) _ (by simpa using hp)]
      simp
  exact this [] hk

theorem chars_inj {a b : Bytes} (h : chars a = chars b) : a = b := by
  induction a generalizing b with
  | nil =>
    cases b with
    | nil => rfl
    | cons y b => simp [chars] at h
  | cons x a ih =>
    cases b with
    | nil => simp [chars] at h
    | cons y b =>
      simp only [chars, List.map_cons, List.cons.injEq] at h
      have key : ∀ m n : Fin 256, Char.ofNat m.val = Char.ofNat n.val → m = n := by
        intro m n e
        have hm : ∀ m : Fin 256, (Char.ofNat m.val).toNat = m.val := by decide +kernel
        exact Fin.ext (by rw [← hm m, ← hm n, e])
      have e : x.toFin = y.toFin := key x.toFin y.toFin h.1
      rw [ih (b := b) h.2, BitVec.eq_of_toFin_eq e]

theorem keep_self (s : List Char) (h0 : '\x00' ∉ s) (hl : s.length ≤ 1023) : keep1023 s = s := (C50_fields_fit s).2.2.2.1 h0 hl

/-- A packet that arrives at a searching station: the address of the sender, the address of the interface it is for, the bytes of the
packet, and what is in the buffer behind them. -/
structure Arrival where
  sender : Bytes
  ip : Bytes
  packet : Bytes
  rest : Bytes

/-- The packet is an answer of the station `s`. -/
def Arrival.From (x : Arrival) (s : Announced) : Prop := ∃ unicast id, queryAnswer 512 unicast id (s.service (some x.ip)) = .ok (some x.packet)

theorem receiveAll_eq (st : Bytes → Announced) (as : List Arrival) (fuel : Nat) (hf : 257 ≤ fuel) (hgood : ∀ x ∈ as, (st x.sender).Good)
    (hip : ∀ x ∈ as, x.ip.length = 4) (hfrom : ∀ x ∈ as, x.From (st x.sender)) :
    receiveAll fuel (as.map fun x => (x.sender, x.packet ++ x.rest, x.packet.length)) =
      .ok (packets (fun a => (st a).service none) (as.map fun x => (x.sender, some x.ip))) := by
  induction as with
  | nil => rfl
  | cons x as ih =>
    rw [List.map_cons, receiveAll]
    simp only
    obtain ⟨u, id, hq⟩ := hfrom x (by simp)
    have hfit := (hgood x (by simp)).fits (some x.ip) (by rintro a ⟨⟩; exact hip x (by simp))
    obtain ⟨p, hp, _, ha⟩ := answer_packet _ hfit u id
    rw [hq] at hp
    injection hp with hp
    injection hp with hp
    rw [← hp] at ha
    rw [receive_packet ha x.rest fuel hf, bind_ok, ih (fun y hy => hgood y (by simp [hy])) (fun y hy => hip y (by simp [hy]))
      (fun y hy => hfrom y (by simp [hy])), bind_ok]
    rfl

theorem stations_map (fuel : Nat) {α : Type} (l : List α) (f : α → Answer) (name uuid : α → List Char)
    (h : ∀ a ∈ l, txtLoop (f a).txt fuel 0 ([], []) = some (.ok (name a, uuid a))) :
    stations fuel (l.map f) = some (.ok (l.map fun a => station (f a) (name a) (uuid a))) := by
  induction l with
  | nil => rfl
  | cons a l ih =>
    rw [List.map_cons, stations, h a (by simp)]
    simp only
    rw [ih fun b hb => h b (by simp [hb])]
    rfl

end Verif.Mdns
