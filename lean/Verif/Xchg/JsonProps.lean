import Verif.Xchg.JsonStore
import Verif.Xchg.JsonStrict
import Verif.Xchg.JsonMessage
import Verif.Xchg.MessageProps

/-!
# C82: the text of MVR-xchange messages
-/

namespace Verif.Xchg

open Verif.UnicodeSpec Verif.Str JsonSpec Verif.Uuid

/-! ### Specification -/

/-- The fields that hold lists do not hold objects. -/
def ListFields (j : Json) : Prop :=
  ∀ k ∈ ["Commits", "ForStationsUUID", "FromStationUUID"], ∀ v, j.at k = .ok v → ∀ l, v ≠ .obj l

/-- The lists of a message and of its commits are not objects. -/
def Lists (j : Json) : Prop := ListFields j ∧ ∀ v, j.at "Commits" = .ok v → ∀ c ∈ v.items, ListFields c

/-- All texts of the message are UTF-8. -/
def Commit.Utf8 (c : Commit) : Prop := JsonSpec.Utf8 c.fileName ∧ JsonSpec.Utf8 c.comment

def Join.Utf8 (j : Join) : Prop := JsonSpec.Utf8 j.provider ∧ JsonSpec.Utf8 j.stationName ∧ ∀ c ∈ j.commits, c.Utf8

/-- All texts of the message are UTF-8; an answer with a file sends no text. -/
def Msg.Utf8 : Msg → Prop
  | .join j => j.Utf8
  | .joinRet _ e j => JsonSpec.Utf8 e ∧ j.Utf8
  | .commit c => c.Utf8
  | .leaveRet _ e => JsonSpec.Utf8 e
  | .commitRet _ e => JsonSpec.Utf8 e
  | .requestRet false e _ => JsonSpec.Utf8 e
  | _ => True

/-! ### Reading messages does not depend on the order of the members -/

theorem at_stored (j : Json) (k : String) : j.stored.at k = (j.at k).map Json.stored := by
  cases j with
  | obj l =>
    rw [Json.stored]
    unfold Json.at
    simp only [lookup_stored]
    cases l.lookup k with
    | none => rfl
    | some v => rfl
  | null => rfl
  | bool b => rfl
  | num n => rfl
  | str s => rfl
  | arr l => rfl

theorem at_bind {α : Type} (j : Json) (k : String) (f g : Json → Except Trouble α) (h : ∀ v, j.at k = .ok v → f v.stored = g v) :
    (j.stored.at k >>= f) = (j.at k >>= g) := by
  rw [at_stored]
  cases e : j.at k with
  | error x => rfl
  | ok v => exact h v e

theorem bind_same {α β : Type} (x : Except Trouble α) (f g : α → Except Trouble β) (h : ∀ a, f a = g a) : (x >>= f) = (x >>= g) := by
  rw [funext h]

theorem text_stored (v : Json) : v.stored.text = v.text := by cases v <;> rfl

theorem unsigned_stored (w : Nat) (v : Json) : v.stored.unsigned w = v.unsigned w := by cases v <;> rfl

theorem number_stored (v : Json) : handleStringNumber v.stored = handleStringNumber v := by cases v <;> rfl

theorem bool_stored (v : Json) : handleStringBool v.stored = handleStringBool v := by cases v <;> rfl

theorem items_stored (v : Json) (h : ∀ l, v ≠ .obj l) : v.stored.items = v.items.map Json.stored := by
  cases v with
  | obj l => exact absurd rfl (h l)
  | arr l => rw [Json.stored]; exact storedList_map l
  | null => rfl
  | bool b => rfl
  | num n => rfl
  | str s => rfl

theorem uuids_stored (l : List Json) : readUuids (l.map Json.stored) = readUuids l := by
  induction l with
  | nil => rfl
  | cons v l ih => rw [List.map_cons, readUuids, readUuids, ih, text_stored]

theorem commit_stored (j : Json) (h : ListFields j) : commitFromJson j.stored = commitFromJson j := by
  unfold commitFromJson
  refine at_bind _ _ _ _ fun v _ => ?_
  rw [text_stored]
  refine bind_same _ _ _ fun a => bind_same _ _ _ fun _ => ?_
  refine at_bind _ _ _ _ fun v _ => ?_
  rw [unsigned_stored]
  refine bind_same _ _ _ fun a => ?_
  refine at_bind _ _ _ _ fun v _ => ?_
  rw [unsigned_stored]
  refine bind_same _ _ _ fun a => ?_
  refine at_bind _ _ _ _ fun v _ => ?_
  rw [unsigned_stored]
  refine bind_same _ _ _ fun a => ?_
  refine at_bind _ _ _ _ fun v _ => ?_
  rw [text_stored]
  refine bind_same _ _ _ fun a => bind_same _ _ _ fun _ => ?_
  refine at_bind _ _ _ _ fun v _ => ?_
  rw [text_stored]
  refine bind_same _ _ _ fun a => ?_
  refine at_bind _ _ _ _ fun v _ => ?_
  rw [text_stored]
  refine bind_same _ _ _ fun a => ?_
  refine at_bind _ _ _ _ fun v hv => ?_
  rw [items_stored v (h _ (by simp) v hv), uuids_stored]

theorem commits_stored (l : List Json) (h : ∀ c ∈ l, ListFields c) : commitsFromJson (l.map Json.stored) = commitsFromJson l := by
  induction l with
  | nil => rfl
  | cons c l ih =>
    rw [List.map_cons, commitsFromJson, commitsFromJson, commit_stored c (h c (by simp)), ih (fun x hx => h x (by simp [hx]))]

theorem joinFields_stored (j : Json) : joinFields j.stored = joinFields j := by
  unfold joinFields
  refine at_bind _ _ _ _ fun v _ => ?_
  rw [number_stored]
  refine bind_same _ _ _ fun a => ?_
  refine at_bind _ _ _ _ fun v _ => ?_
  rw [number_stored]
  refine bind_same _ _ _ fun a => ?_
  refine at_bind _ _ _ _ fun v _ => ?_
  rw [text_stored]
  refine bind_same _ _ _ fun a => bind_same _ _ _ fun _ => ?_
  refine at_bind _ _ _ _ fun v _ => ?_
  rw [text_stored]
  refine bind_same _ _ _ fun a => bind_same _ _ _ fun _ => ?_
  refine at_bind _ _ _ _ fun v _ => ?_
  rw [text_stored]

theorem retFields_stored (j : Json) : retFields j.stored = retFields j := by
  unfold retFields
  refine at_bind _ _ _ _ fun v _ => ?_
  rw [bool_stored]
  refine bind_same _ _ _ fun a => ?_
  refine at_bind _ _ _ _ fun v _ => ?_
  rw [text_stored]

theorem fromJson_stored (j : Json) (h : Lists j) : fromJson j.stored = fromJson j := by
  unfold fromJson
  refine at_bind _ _ _ _ fun v _ => ?_
  have hc : ∀ (α : Type) (f : List Commit → Except Trouble α),
      (j.stored.at "Commits" >>= fun v => commitsFromJson v.items >>= f) = (j.at "Commits" >>= fun v => commitsFromJson v.items >>= f) := by
    intro α f
    refine at_bind _ _ _ _ fun v hv => ?_
    rw [items_stored v (h.1 _ (by simp) v hv), commits_stored _ (h.2 v hv)]
  cases v with
  | null => rfl
  | bool b => rfl
  | num n => rfl
  | arr l => rfl
  | obj l => rfl
  | str t =>
    simp only [Json.stored]
    split
    · rw [joinFields_stored]
      exact bind_same _ _ _ fun a => hc _ _
    split
    · rw [joinFields_stored, retFields_stored]
      exact bind_same _ _ _ fun a => bind_same _ _ _ fun b => hc _ _
    split
    · rw [commit_stored j h.1]
    split
    · rw [retFields_stored]
    split
    · refine at_bind _ _ _ _ fun v _ => ?_
      rw [text_stored]
      refine bind_same _ _ _ fun a => ?_
      refine at_bind _ _ _ _ fun v hv => ?_
      rw [items_stored v (h.1 _ (by simp) v hv), uuids_stored]
    split
    · rw [retFields_stored]
    split
    · cases j with
      | obj l =>
        simp only [Json.stored, lookup_stored]
        cases l.lookup "FromStationUUID" with
        | some v => simp only [Option.map_some]; rw [text_stored]
        | none =>
          simp only [Option.map_none]
          cases l.lookup "StationUUID" with
          | some v => simp only [Option.map_some]; rw [text_stored]
          | none => rfl
      | null => rfl
      | bool b => rfl
      | num n => rfl
      | str s => rfl
      | arr l => rfl
    split
    · rw [retFields_stored]
    · rfl

theorem decode_stored (j : Json) (h : Lists j) : decode (.json j.stored) = decode (.json j) := by
  cases j with
  | obj l =>
    have := fromJson_stored _ h
    rw [Json.stored] at this ⊢
    simp only [decode, lookup_stored]
    cases l.lookup "Type" with
    | none => rfl
    | some t => simp only [Option.map_some]; rw [text_stored, this]
  | null => rfl
  | bool b => rfl
  | num n => rfl
  | str s => rfl
  | arr l => rfl

/-! ### Bytes -/

theorem bytesOf_byte (c : Nat) : ∀ x ∈ bytesOf c, x.toNat < 256 := by
  intro x hx
  unfold bytesOf at hx
  obtain ⟨b, _, rfl⟩ := List.mem_map.1 hx
  have := b.isLt
  rw [ofNat_toNat' _ (by omega)]
  exact this

theorem hexDigit_byte {n : Nat} {c : Char} (h : HexDigit n c) : c.toNat < 256 := by
  have key : ∀ l : List Char, (∀ x ∈ l, x.toNat < 256) → l[n]? = some c → c.toNat < 256 := fun l hl h => hl c (List.mem_of_getElem? h)
  rcases h with h | h
  · exact key _ (by decide) h
  · exact key _ (by decide) h

theorem hex4_byte {n : Nat} {t : List Char} (h : Hex4 n t) : ∀ x ∈ t, x.toNat < 256 := by
  obtain ⟨a, b, c, d, rfl, ha, hb, hc, hd⟩ := h
  intro x hx
  simp only [List.mem_cons, List.not_mem_nil, or_false] at hx
  rcases hx with rfl | rfl | rfl | rfl
  · exact hexDigit_byte ha
  · exact hexDigit_byte hb
  · exact hexDigit_byte hc
  · exact hexDigit_byte hd

theorem charText_byte {c : Nat} {p : List Char} (h : CharText c p) : ∀ x ∈ p, x.toNat < 256 := by
  intro x hx
  cases h with
  | raw => exact bytesOf_byte c x hx
  | letter e h =>
    have : ∀ y ∈ letters, y.2.toNat < 256 := by decide
    simp only [List.mem_cons, List.not_mem_nil, or_false] at hx
    rcases hx with rfl | rfl
    · decide
    · exact this _ h
  | hex h h1 t ht =>
    simp only [List.mem_cons] at hx
    rcases hx with rfl | rfl | hx
    · decide
    · decide
    · exact hex4_byte ht x hx
  | pair h1 h2 t u ht hu =>
    simp only [List.mem_append, List.mem_cons] at hx
    rcases hx with (rfl | rfl | hx) | rfl | rfl | hx
    · decide
    · decide
    · exact hex4_byte ht x hx
    · decide
    · decide
    · exact hex4_byte hu x hx

theorem stringText_byte {s t : List Char} (h : StringText s t) : ∀ x ∈ t, x.toNat < 256 := by
  induction h with
  | nil => simp
  | cons h _ ih =>
    intro x hx
    rcases List.mem_append.1 hx with hx | hx
    · exact charText_byte h x hx
    · exact ih x hx

theorem space_byte {w : List Char} (h : Space w) : ∀ x ∈ w, x.toNat < 256 := by
  intro x hx
  have := h x hx
  simp only [List.mem_cons, List.not_mem_nil, or_false] at this
  rcases this with rfl | rfl | rfl | rfl <;> decide

theorem int_byte {n : Int} {t : List Char} (h : IntText n t) : ∀ x ∈ t, x.toNat < 256 := by
  obtain ⟨ds, hd, h⟩ := h
  have hb : ∀ x ∈ ds, x.toNat < 256 := by
    intro x hx
    have := (digit_iff x).1 (hd.2.1 x hx)
    unfold isDigit at this
    simp only [Bool.and_eq_true, decide_eq_true_eq] at this
    have h9 : x.toNat ≤ ('9' : Char).toNat := this.2
    exact Nat.lt_of_le_of_lt h9 (by decide)
  rcases h with ⟨e, _⟩ | ⟨e, _⟩
  · rw [e]; exact hb
  · rw [e]
    intro x hx
    rcases List.mem_cons.1 hx with rfl | hx
    · decide
    · exact hb x hx

/-- All characters are bytes. -/
def Bytes (t : List Char) : Prop := ∀ x ∈ t, x.toNat < 256

theorem Bytes.append {t u : List Char} (h : Bytes t) (hu : Bytes u) : Bytes (t ++ u) := by
  intro x hx
  rcases List.mem_append.1 hx with hx | hx
  · exact h x hx
  · exact hu x hx

theorem Bytes.cons {c : Char} {u : List Char} (h : c.toNat < 256) (hu : Bytes u) : Bytes (c :: u) := by
  intro x hx
  rcases List.mem_cons.1 hx with rfl | hx
  · exact h
  · exact hu x hx

theorem Bytes.nil : Bytes [] := by simp [Bytes]

mutual

theorem text_byte {j : Json} {t : List Char} : Text Space j t → Bytes t
  | .null => by unfold Bytes; decide
  | .yes => by unfold Bytes; decide
  | .no => by unfold Bytes; decide
  | .num h _ _ => int_byte h
  | .str h => (Bytes.cons (by decide) (stringText_byte h)).append (Bytes.cons (by decide) Bytes.nil)
  | .noElements h => (Bytes.cons (by decide) (space_byte h)).append (Bytes.cons (by decide) Bytes.nil)
  | .arr h => (Bytes.cons (by decide) (elements_byte h)).append (Bytes.cons (by decide) Bytes.nil)
  | .noMembers h => (Bytes.cons (by decide) (space_byte h)).append (Bytes.cons (by decide) Bytes.nil)
  | .obj h => (Bytes.cons (by decide) (members_byte h)).append (Bytes.cons (by decide) Bytes.nil)

theorem elements_byte {l : List Json} {t : List Char} : Elements Space l t → Bytes t
  | .one h hv h' => (Bytes.append (space_byte h) (text_byte hv)).append (space_byte h')
  | .more h hv h' hr => ((Bytes.append (space_byte h) (text_byte hv)).append (space_byte h')).append (Bytes.cons (by decide) (elements_byte hr))

theorem members_byte {l : List (String × Json)} {t : List Char} : Members Space l t → Bytes t
  | .one h hk h1 h2 hv h' => ((((Bytes.append (space_byte h) (Bytes.cons (by decide) (stringText_byte hk))).append
      (Bytes.cons (by decide) (space_byte h1))).append (Bytes.cons (by decide) (space_byte h2))).append (text_byte hv)).append (space_byte h')
  | .more h hk h1 h2 hv h' hr => (((((Bytes.append (space_byte h) (Bytes.cons (by decide) (stringText_byte hk))).append
      (Bytes.cons (by decide) (space_byte h1))).append (Bytes.cons (by decide) (space_byte h2))).append (text_byte hv)).append
      (space_byte h')).append (Bytes.cons (by decide) (members_byte hr))

end

theorem ofBytes_toBytes (t : List Char) (h : Bytes t) : ofBytes (toBytes t) = t := by
  unfold ofBytes toBytes
  rw [List.map_map]
  have : ∀ c ∈ t, ((fun x : BitVec 8 => Char.ofNat x.toNat) ∘ fun c : Char => BitVec.ofNat 8 c.toNat) c = id c := by
    intro c hc
    have h256 := h c hc
    simp only [Function.comp, BitVec.toNat_ofNat, id]
    rw [show c.toNat % 2 ^ 8 = c.toNat by omega]
    exact Char.ofNat_toNat c
  rw [List.map_congr_left this, List.map_id]

theorem utf8_ascii (s : List Char) (h : ∀ c ∈ s, c.toNat < 0x80) : JsonSpec.Utf8 s := by
  refine ⟨s.map Char.toNat, ?_, ?_⟩
  · intro c hc
    obtain ⟨x, hx, rfl⟩ := List.mem_map.1 hc
    have := h x hx
    exact ⟨by omega, by omega⟩
  · induction s with
    | nil => rfl
    | cons c s ih =>
      rw [List.map_cons, List.flatMap_cons, ← ih (fun x hx => h x (by simp [hx])), bytesOf_1 _ (h c (by simp)), Char.ofNat_toNat]
      rfl

theorem piece_ascii (b : BitVec 8) : ∀ c ∈ getPieceAsText b, c.toNat < 0x80 := by
  have : ∀ b : BitVec 8, ∀ c ∈ getPieceAsText b, c.toNat < 0x80 := by decide +kernel
  exact this b

theorem uuid_utf8 (u : Words) : ∃ s, uuidJson u = .str s ∧ JsonSpec.Utf8 s := by
  refine ⟨_, rfl, utf8_ascii _ ?_⟩
  intro c hc
  unfold convertToText toText at hc
  simp only [List.mem_flatten] at hc
  obtain ⟨l, hl, hc⟩ := hc
  simp only [List.mem_cons, List.not_mem_nil, or_false, if_false, Bool.false_eq_true] at hl
  rcases hl with rfl | rfl | rfl | rfl | rfl | rfl | rfl | rfl | rfl | rfl | rfl | rfl | rfl | rfl | rfl | rfl | rfl | rfl | rfl | rfl |
    rfl | rfl
  all_goals first
    | exact piece_ascii _ c hc
    | (simp only [List.mem_cons, List.not_mem_nil, or_false] at hc; subst hc; decide)
    | exact absurd hc List.not_mem_nil

/-! ### The payload of a message -/

theorem uuid_allUtf8 (u : Words) : AllUtf8 (uuidJson u) := by
  obtain ⟨s, e, h⟩ := uuid_utf8 u
  rw [e, AllUtf8]
  exact h

theorem uuids_allUtf8 (us : List Words) : AllUtf8 (.arr (us.map uuidJson)) := by
  rw [AllUtf8, utf8Elements_iff]
  intro v hv
  obtain ⟨u, _, rfl⟩ := List.mem_map.1 hv
  exact uuid_allUtf8 u

theorem uuids_proper (us : List Words) : Proper (.arr (us.map uuidJson)) := by
  rw [Proper, properElements_iff]
  intro v hv
  obtain ⟨u, _, rfl⟩ := List.mem_map.1 hv
  simp [uuidJson, Proper]

theorem proper_bits (w : Nat) (hw : w ≤ 64) (x : BitVec w) : Proper (.num x.toNat) := by
  rw [Proper]
  have := x.isLt
  have : 2 ^ w ≤ 2 ^ 64 := Nat.pow_le_pow_right (by decide) hw
  constructor
  · have : (0 : Int) ≤ (x.toNat : Int) := Int.natCast_nonneg _
    omega
  · have : x.toNat < 2 ^ 64 := by omega
    omega

theorem commit_proper (c : Commit) : Proper (.obj (commitToJson c)) := by
  rw [Proper]
  refine ⟨(show ["Type", "FileName", "Comment", "FileSize", "FileUUID", "StationUUID", "verMinor", "verMajor", "ForStationsUUID"].Nodup by decide), ?_⟩
  unfold commitToJson
  simp only [ProperMembers]
  refine ⟨by simp [Proper], by simp [Proper], by simp [Proper], proper_bits 64 (by decide) _, by simp [uuidJson, Proper], by simp [uuidJson, Proper],
    proper_bits 32 (by decide) _, proper_bits 32 (by decide) _, uuids_proper _, trivial⟩

theorem join_proper (j : Join) : ProperMembers (joinToJson j) := by
  unfold joinToJson
  simp only [ProperMembers]
  refine ⟨by simp [Proper], by simp [Proper], by simp [uuidJson, Proper], proper_bits 32 (by decide) _, proper_bits 32 (by decide) _, ?_, trivial⟩
  rw [Proper, properElements_iff]
  intro v hv
  obtain ⟨c, _, rfl⟩ := List.mem_map.1 hv
  exact commit_proper c

theorem payload_proper (m : Msg) (p : List (String × Json)) (h : payload m = some p) : Proper (.obj p) := by
  cases m with
  | undefined => cases h
  | newSessionHost => cases h
  | join j =>
    injection h with h; subst h
    rw [Proper, ProperMembers]
    exact ⟨(show ["Type", "Provider", "StationName", "StationUUID", "verMajor", "verMinor", "Commits"].Nodup by decide), by simp [Proper], join_proper j⟩
  | joinRet ok err j =>
    injection h with h; subst h
    rw [Proper, ProperMembers, ProperMembers, ProperMembers]
    exact ⟨(show ["OK", "Message", "Type", "Provider", "StationName", "StationUUID", "verMajor", "verMinor", "Commits"].Nodup by decide), by simp [Proper],
      by simp [Proper], by simp [Proper], join_proper j⟩
  | leave u =>
    injection h with h; subst h
    simp only [Proper, ProperMembers, uuidJson]
    exact ⟨(show ["Type", "FromStationUUID"].Nodup by decide), trivial, trivial, trivial⟩
  | leaveRet ok err =>
    injection h with h; subst h
    simp only [Proper, ProperMembers]
    exact ⟨(show ["Type", "OK", "Message"].Nodup by decide), trivial, trivial, trivial, trivial⟩
  | commit c => injection h with h; subst h; exact commit_proper c
  | commitRet ok err =>
    injection h with h; subst h
    simp only [Proper, ProperMembers]
    exact ⟨(show ["OK", "Message", "Type"].Nodup by decide), trivial, trivial, trivial, trivial⟩
  | request f s =>
    injection h with h; subst h
    rw [Proper, ProperMembers, ProperMembers, ProperMembers]
    exact ⟨(show ["Type", "FileUUID", "FromStationUUID"].Nodup by decide), by simp [Proper], by simp [uuidJson, Proper], uuids_proper _, by simp [ProperMembers]⟩
  | requestRet ok err b =>
    injection h with h; subst h
    simp only [Proper, ProperMembers]
    exact ⟨(show ["Type", "OK", "Message"].Nodup by decide), trivial, trivial, trivial, trivial⟩

theorem utf8_const (s : String) (h : ∀ c ∈ s.toList, c.toNat < 0x80) : JsonSpec.Utf8 s.toList := utf8_ascii _ h

theorem commit_utf8 (c : Commit) : AllUtf8 (.obj (commitToJson c)) ↔ c.Utf8 := by
  have e : AllUtf8 (.obj (commitToJson c)) ↔ (JsonSpec.Utf8 c.fileName ∧ JsonSpec.Utf8 c.comment) := by
    unfold commitToJson
    simp only [AllUtf8, AllUtf8Members]
    constructor
    · intro h; exact ⟨h.2.2.2.1, h.2.2.2.2.2.1⟩
    · intro h
      exact ⟨utf8_ascii _ (by decide), utf8_ascii _ (by decide), utf8_ascii _ (by decide), h.1, utf8_ascii _ (by decide), h.2, utf8_ascii _ (by decide), trivial,
        utf8_ascii _ (by decide), uuid_allUtf8 _, utf8_ascii _ (by decide), uuid_allUtf8 _, utf8_ascii _ (by decide), trivial, utf8_ascii _ (by decide), trivial,
        utf8_ascii _ (by decide), by simpa only [AllUtf8] using uuids_allUtf8 c.forStations, trivial⟩
  exact e

theorem join_utf8 (j : Join) : AllUtf8Members (joinToJson j) ↔ j.Utf8 := by
  unfold joinToJson
  simp only [AllUtf8Members]
  constructor
  · intro h
    refine ⟨h.2.1, h.2.2.2.1, ?_⟩
    have hc := h.2.2.2.2.2.2.2.2.2.2.2.1
    rw [AllUtf8, utf8Elements_iff] at hc
    intro c hm
    exact (commit_utf8 c).1 (hc _ (List.mem_map.2 ⟨c, hm, rfl⟩))
  · intro h
    refine ⟨utf8_ascii _ (by decide), by rw [AllUtf8]; exact h.1, utf8_ascii _ (by decide), by rw [AllUtf8]; exact h.2.1, utf8_ascii _ (by decide), uuid_allUtf8 _,
      utf8_ascii _ (by decide), by simp [AllUtf8], utf8_ascii _ (by decide), by simp [AllUtf8], utf8_ascii _ (by decide), ?_, trivial⟩
    rw [AllUtf8, utf8Elements_iff]
    intro v hv
    obtain ⟨c, hm, rfl⟩ := List.mem_map.1 hv
    exact (commit_utf8 c).2 (h.2.2 c hm)

/-- The texts of the payload are UTF-8 exactly if the texts of the message are. -/
theorem payload_utf8 (m : Msg) (p : List (String × Json)) (h : payload m = some p) (hf : ∀ e b, m ≠ .requestRet true e b) : AllUtf8 (.obj p) ↔ m.Utf8 := by
  have ty : ∀ s : String, (∀ c ∈ s.toList, c.toNat < 0x80) → AllUtf8 (.str s.toList) := fun s hs => by rw [AllUtf8]; exact utf8_ascii _ hs
  cases m with
  | undefined => cases h
  | newSessionHost => cases h
  | join j =>
    injection h with h; subst h
    rw [AllUtf8, AllUtf8Members, join_utf8]
    exact ⟨fun h => h.2.2, fun h => ⟨utf8_ascii _ (by decide), ty _ (by decide), h⟩⟩
  | joinRet ok err j =>
    injection h with h; subst h
    rw [AllUtf8, AllUtf8Members, AllUtf8Members, AllUtf8Members, join_utf8]
    constructor
    · intro h
      have := h.2.2.2.1
      rw [AllUtf8] at this
      exact ⟨this, h.2.2.2.2.2.2⟩
    · intro h
      exact ⟨utf8_ascii _ (by decide), by simp [AllUtf8], utf8_ascii _ (by decide), by rw [AllUtf8]; exact h.1, utf8_ascii _ (by decide), ty _ (by decide), h.2⟩
  | leave u =>
    injection h with h; subst h
    simp only [AllUtf8, AllUtf8Members]
    exact ⟨fun _ => trivial, fun _ => ⟨utf8_ascii _ (by decide), utf8_ascii _ (by decide), utf8_ascii _ (by decide), uuid_allUtf8 u, trivial⟩⟩
  | leaveRet ok err =>
    injection h with h; subst h
    simp only [AllUtf8, AllUtf8Members]
    exact ⟨fun h => h.2.2.2.2.2.1, fun h => ⟨utf8_ascii _ (by decide), utf8_ascii _ (by decide), utf8_ascii _ (by decide), trivial, utf8_ascii _ (by decide), h, trivial⟩⟩
  | commit c => injection h with h; subst h; exact commit_utf8 c
  | commitRet ok err =>
    injection h with h; subst h
    simp only [AllUtf8, AllUtf8Members]
    exact ⟨fun h => h.2.2.2.1, fun h => ⟨utf8_ascii _ (by decide), trivial, utf8_ascii _ (by decide), h, utf8_ascii _ (by decide), utf8_ascii _ (by decide), trivial⟩⟩
  | request f s =>
    injection h with h; subst h
    rw [AllUtf8, AllUtf8Members, AllUtf8Members, AllUtf8Members]
    exact ⟨fun _ => trivial, fun _ => ⟨utf8_ascii _ (by decide), ty _ (by decide), utf8_ascii _ (by decide), uuid_allUtf8 f, utf8_ascii _ (by decide), uuids_allUtf8 s,
      by simp [AllUtf8Members]⟩⟩
  | requestRet ok err b =>
    cases ok with
    | true => exact absurd rfl (hf err b)
    | false =>
      injection h with h; subst h
      simp only [AllUtf8, AllUtf8Members]
      exact ⟨fun h => h.2.2.2.2.2.1, fun h => ⟨utf8_ascii _ (by decide), utf8_ascii _ (by decide), utf8_ascii _ (by decide), trivial, utf8_ascii _ (by decide), h, trivial⟩⟩

theorem commit_lists (c : Commit) : ListFields (.obj (commitToJson c)) := by
  intro k hk v hv l e
  subst e
  simp only [List.mem_cons, List.not_mem_nil, or_false] at hk
  rcases hk with rfl | rfl | rfl
  · have : (Json.obj (commitToJson c)).at "Commits" = .error .undefined := rfl
    rw [this] at hv; cases hv
  · have : (Json.obj (commitToJson c)).at "ForStationsUUID" = .ok (.arr (c.forStations.map uuidJson)) := rfl
    rw [this] at hv; cases hv
  · have : (Json.obj (commitToJson c)).at "FromStationUUID" = .error .undefined := rfl
    rw [this] at hv; cases hv

theorem payload_lists (m : Msg) (p : List (String × Json)) (h : payload m = some p) : Lists (.obj p) := by
  have main : ∀ (p : List (String × Json)) (a b c : Option Json), p.lookup "Commits" = a → p.lookup "ForStationsUUID" = b → p.lookup "FromStationUUID" = c →
      (∀ v, a = some v → ∀ l, v ≠ .obj l) → (∀ v, b = some v → ∀ l, v ≠ .obj l) → (∀ v, c = some v → ∀ l, v ≠ .obj l) →
      (∀ v, a = some v → ∀ x ∈ v.items, ListFields x) → Lists (.obj p) := by
    intro p a b c ha hb hc h1 h2 h3 h4
    have conv : ∀ k v, (Json.obj p).at k = .ok v → p.lookup k = some v := by
      intro k v hv
      unfold Json.at at hv
      simp only at hv
      cases e : p.lookup k with
      | none => rw [e] at hv; cases hv
      | some w => rw [e] at hv; injection hv with hv; rw [hv]
    refine ⟨?_, fun v hv => h4 v (by rw [← ha]; exact conv _ _ hv)⟩
    intro k hk v hv
    simp only [List.mem_cons, List.not_mem_nil, or_false] at hk
    have := conv k v hv
    rcases hk with rfl | rfl | rfl
    · exact h1 v (by rw [← ha]; exact this)
    · exact h2 v (by rw [← hb]; exact this)
    · exact h3 v (by rw [← hc]; exact this)
  have hcommits : ∀ (j : Join) (v : Json), some (Json.arr (j.commits.map fun c => .obj (commitToJson c))) = some v →
      (∀ l, v ≠ .obj l) ∧ ∀ x ∈ v.items, ListFields x := by
    intro j v e
    injection e with e; subst e
    refine ⟨nofun, ?_⟩
    intro x hx
    obtain ⟨c, _, rfl⟩ := List.mem_map.1 hx
    exact commit_lists c
  cases m with
  | undefined => cases h
  | newSessionHost => cases h
  | join j =>
    injection h with h; subst h
    exact main _ _ _ _ rfl rfl rfl (fun v e => (hcommits j v e).1) nofun nofun (fun v e => (hcommits j v e).2)
  | joinRet ok err j =>
    injection h with h; subst h
    exact main _ _ _ _ rfl rfl rfl (fun v e => (hcommits j v e).1) nofun nofun (fun v e => (hcommits j v e).2)
  | leave u => injection h with h; subst h; exact main _ _ _ _ rfl rfl rfl nofun nofun (by rintro v ⟨⟩ l; nofun) nofun
  | leaveRet ok err => injection h with h; subst h; exact main _ _ _ _ rfl rfl rfl nofun nofun nofun nofun
  | commit c => injection h with h; subst h; exact main _ _ _ _ rfl rfl rfl nofun (by rintro v ⟨⟩ l; nofun) nofun nofun
  | commitRet ok err => injection h with h; subst h; exact main _ _ _ _ rfl rfl rfl nofun nofun nofun nofun
  | request f s => injection h with h; subst h; exact main _ _ _ _ rfl rfl rfl nofun nofun (by rintro v ⟨⟩ l; nofun) nofun
  | requestRet ok err b => injection h with h; subst h; exact main _ _ _ _ rfl rfl rfl nofun nofun nofun nofun

theorem space_nil : Space [] := by intro c hc; cases hc

theorem document_text {j : Json} {t : List Char} (h : Text Space j t) : Document j t := ⟨[], t, [], space_nil, h, space_nil, by simp⟩

/-! ### C82 -/

/-- Every JSON document (RFC 8259, integers of 64 bits, distinct keys) is read as the value it stands for, however it is laid
out; so is a text with comments, a byte order mark and a `Tail`. -/
theorem C82_read (j : Json) (t : List Char) (h : Document j t ∨ Accepted j t) (hp : Proper j) : ∃ j', parse t = .value j' ∧ Same j j' := by
  have ha : Accepted j t := h.elim document_accepted id
  exact ⟨j.stored, by rw [parse_kept ha, kept_stored j hp], same_stored j hp⟩

/-- Nothing else is read: a text that gives a value is a text of that value. -/
theorem C82_only_json (j : Json) (t : List Char) (h : parse t = .value j) : ∃ v, Accepted v t ∧ (Proper v → Same v j) := by
  obtain ⟨v, ha, e⟩ := parse_accepted t j h
  exact ⟨v, ha, fun hp => by rw [e, kept_stored v hp]; exact same_stored v hp⟩

/-- A value whose texts are UTF-8 is written as a JSON text of that value, and reading the text gives the value again. -/
theorem C82_write (j : Json) (hp : Proper j) (hu : AllUtf8 j) :
    ∃ t j', j.dump = .ok t ∧ Text Space j' t ∧ parse t = .value j' ∧ Same j j' := by
  obtain ⟨t, ht, htext⟩ := dump_text j.stored (proper_stored j hp) (utf8_stored j hu)
  refine ⟨t, j.stored, ht, htext, ?_, same_stored j hp⟩
  rw [parse_kept (text_accepted htext), kept_stored _ (proper_stored j hp), stored_stored]

/-- A value with a text that is not UTF-8 cannot be written: an exception. -/
theorem C82_not_utf8_violated (j : Json) (hp : Proper j) (hu : ¬ AllUtf8 j) : j.dump = .error .thrown := by
  rcases okOnly_dump j.stored with ⟨_, _, h⟩ | h
  · exact absurd (utf8_of_stored j hp h) hu
  · exact h

/-- A message comes back as it was sent, through its bytes. -/
theorem C82_message_partial (m : Msg) (hs : m.Sendable) (hf : m.Fits) (hu : m.Utf8) (hne : ∀ e, m ≠ .requestRet true e []) :
    ∃ type body, fromExternal m = .ok (type, body) ∧ toExternal type body = some (.ok (.message m.seen)) := by
  obtain ⟨b, hb, hd⟩ := C49_roundtrip_partial m hs hf hne
  have hpay : ∃ p, payload m = some p := by
    cases hp : payload m with
    | some p => exact ⟨p, rfl⟩
    | none => unfold encode at hb; rw [hp] at hb; cases hb
  obtain ⟨p, hp⟩ := hpay
  by_cases hfile : ∃ e f, m = .requestRet true e f
  · obtain ⟨e, f, rfl⟩ := hfile
    have : b = .file f := by
      unfold encode at hb
      rw [hp] at hb
      injection hb with hb
      exact hb.symm
    subst this
    refine ⟨1, f, by unfold fromExternal; rw [hb]; rfl, ?_⟩
    unfold toExternal
    rw [if_neg (by simp), if_pos rfl, hd]
  · have hbj : b = .json (.obj p) := by
      unfold encode at hb
      rw [hp] at hb
      cases m with
      | requestRet ok e f =>
        cases ok with
        | true => exact absurd ⟨e, f, rfl⟩ hfile
        | false => injection hb with hb; exact hb.symm
      | undefined => cases hp
      | newSessionHost => cases hp
      | join j => injection hb with hb; exact hb.symm
      | leave u => injection hb with hb; exact hb.symm
      | commit c => injection hb with hb; exact hb.symm
      | request f s => injection hb with hb; exact hb.symm
      | joinRet ok e j => injection hb with hb; exact hb.symm
      | leaveRet ok e => injection hb with hb; exact hb.symm
      | commitRet ok e => injection hb with hb; exact hb.symm
    subst hbj
    have hpp := payload_proper m p hp
    have hpu := (payload_utf8 m p hp (fun e f he => hfile ⟨e, f, he⟩)).2 hu
    obtain ⟨t, ht, htext⟩ := dump_text (Json.obj p).stored (proper_stored _ hpp) (utf8_stored _ hpu)
    have hdump : (Json.obj p).dump = .ok t := ht
    refine ⟨0, toBytes t, by unfold fromExternal; rw [hb]; show ((Json.obj p).dump >>= _) = _; rw [hdump]; rfl, ?_⟩
    have hne' : toBytes t ≠ [] := by
      obtain ⟨c, u, e, _⟩ := text_begins htext
      rw [e]
      simp [toBytes]
    unfold toExternal
    rw [if_pos ⟨rfl, hne'⟩, ofBytes_toBytes t (text_byte htext), parse_kept (text_accepted htext), kept_stored _ (proper_stored _ hpp), stored_stored]
    simp only
    rw [decode_stored _ (payload_lists m p hp), hd]

/-- A message with a text that is not UTF-8 cannot be sent: an exception in the sending call. -/
theorem C82_message_violated (m : Msg) (hs : m.Sendable) (hu : ¬ m.Utf8) : fromExternal m = .error .thrown := by
  have hpay : ∃ p, payload m = some p := by
    cases m with
    | undefined => exact hs.elim
    | newSessionHost => exact hs.elim
    | _ => exact ⟨_, rfl⟩
  obtain ⟨p, hp⟩ := hpay
  have hfile : ∀ e f, m ≠ .requestRet true e f := by
    rintro e f rfl
    exact hu trivial
  have he : encode m = .ok (.json (.obj p)) := by
    unfold encode
    rw [hp]
    cases m with
    | requestRet ok e f =>
      cases ok with
      | true => exact absurd rfl (hfile e f)
      | false => rfl
    | _ => rfl
  have hd := C82_not_utf8_violated (.obj p) (payload_proper m p hp) (fun h => hu ((payload_utf8 m p hp hfile).1 h))
  unfold fromExternal
  rw [he]
  show ((Json.obj p).dump >>= _) = _
  rw [hd]
  rfl

/-- A message of another program is understood however its text is laid out: white space, comments, the order of the members
and the escapes in texts do not matter. -/
theorem C82_any_layout (j : Json) (body : List (BitVec 8)) (h : Document j (ofBytes body) ∨ Accepted j (ofBytes body)) (hp : Proper j) (hl : Lists j) :
    toExternal 0 body = some (decode (.json j)) := by
  have ha : Accepted j (ofBytes body) := h.elim document_accepted id
  have hne : body ≠ [] := by
    rintro rfl
    obtain ⟨m, w, u, w', r, _, _, hu, _, _, e⟩ := ha
    obtain ⟨c, x, e', _⟩ := text_begins hu
    rw [e'] at e
    have := congrArg List.length e
    simp [ofBytes] at this
  unfold toExternal
  rw [if_pos ⟨rfl, hne⟩, parse_kept ha, kept_stored j hp]
  simp only
  rw [decode_stored j hl]

/-- A message whose body is no JSON is refused. -/
theorem C82_not_json (body : List (BitVec 8)) (h : ∀ v, ¬ Accepted v (ofBytes body)) (r : Except Trouble Got)
    (hr : toExternal 0 body = some r) : r = .ok .refused := by
  unfold toExternal at hr
  split at hr
  · cases e : parse (ofBytes body) with
    | value j =>
      obtain ⟨v, ha, _⟩ := parse_accepted _ _ e
      exact absurd ha (h v)
    | error =>
      rw [e] at hr
      injection hr with hr
      exact hr.symm
    | float => rw [e] at hr; cases hr
  · rw [if_neg (by decide)] at hr
    injection hr with hr
    exact hr.symm

/-! ### The hypotheses are met -/

/-- A station named "Bühne" joins. -/
example : ∃ m : Msg, m.Sendable ∧ m.Fits ∧ m.Utf8 ∧ (∀ e, m ≠ .requestRet true e []) ∧ ∃ j, m = .join j ∧ j.stationName.length = 6 := by
  have hu : JsonSpec.Utf8 [Char.ofNat 0x42, Char.ofNat 0xC3, Char.ofNat 0xBC, Char.ofNat 0x68, Char.ofNat 0x6E, Char.ofNat 0x65] := by
    refine ⟨[0x42, 0xFC, 0x68, 0x6E, 0x65], ?_, by decide⟩
    intro c hc
    simp only [List.mem_cons, List.not_mem_nil, or_false] at hc
    rcases hc with rfl | rfl | rfl | rfl | rfl <;> exact ⟨by decide, by decide⟩
  refine ⟨.join ⟨"Desk".toList, _, (1, 2, 3, 4), 1, 6, []⟩, trivial, ⟨?_, ?_, nofun⟩, ⟨utf8_ascii _ (by decide), hu, nofun⟩, nofun, _, rfl, rfl⟩
  · exact ⟨by decide, by decide⟩
  · exact ⟨by decide, by decide⟩

/-- A byte 0xFC alone (Latin-1) is not UTF-8, and the message is sendable otherwise. -/
theorem not_utf8_latin1 : ¬ JsonSpec.Utf8 [Char.ofNat 0xFC] := by
  intro h
  obtain ⟨t, ht, _⟩ := dump_ok _ h
  have : dumpEscaped 0 0 [Char.ofNat 0xFC] = .error .thrown := rfl
  rw [this] at ht
  cases ht

example : ∃ m : Msg, m.Sendable ∧ m.Fits ∧ ¬ m.Utf8 :=
  ⟨.leaveRet true [Char.ofNat 0xFC], trivial, ⟨by decide, by decide⟩, not_utf8_latin1⟩

example : ∃ j : Json, Proper j ∧ ¬ AllUtf8 j := ⟨.str [Char.ofNat 0xFC], by simp [Proper], by rw [AllUtf8]; exact not_utf8_latin1⟩

example : ∃ j : Json, Proper j ∧ AllUtf8 j ∧ ∃ a b c, j = .obj [a, b, c] := by
  refine ⟨.obj [("Type", .str "MVR_LEAVE_RET".toList), ("OK", .bool true), ("Message", .num (-5))], ?_, ?_, _, _, _, rfl⟩
  · simp only [Proper, ProperMembers]
    exact ⟨(show ["Type", "OK", "Message"].Nodup by decide), trivial, trivial, by decide, trivial⟩
  · simp only [AllUtf8, AllUtf8Members]
    exact ⟨utf8_ascii _ (by decide), utf8_ascii _ (by decide), utf8_ascii _ (by decide), trivial, utf8_ascii _ (by decide), trivial, trivial⟩

/-- Plain characters written as themselves. -/
theorem plain_text (s : List Char) (h : ∀ c ∈ s, 0x20 ≤ c.toNat ∧ c.toNat < 0x80 ∧ c ≠ '"' ∧ c ≠ '\\') : StringText s s := by
  induction s with
  | nil => exact .nil
  | cons c s ih =>
    have h0 := h c (by simp)
    have e : bytesOf c.toNat = [c] := by rw [bytesOf_1 _ h0.2.1, Char.ofNat_toNat]
    have hx : ∀ d : Char, c ≠ d → c.toNat ≠ d.toNat := fun d hd he => hd (by rw [char_eq c, he, ← char_eq d])
    have hc : CharText c.toNat [c] := by
      have := CharText.raw c.toNat ⟨by omega, by omega⟩ h0.1 (hx '"' h0.2.2.1) (hx '\\' h0.2.2.2)
      rwa [e] at this
    have := StringText.cons hc (ih (fun x hx => h x (by simp [hx])))
    rwa [e] at this

/-- A message as another program may write it: the type last, spaces and line ends, a slash and a quarter note as escapes. -/
example : ∃ j, Document j "{ \"OK\" : true,\n\"Message\":\"a\\/\\u2669\", \"Type\":\"MVR_LEAVE_RET\" }".toList ∧ Proper j ∧ Lists j ∧
    decode (.json j) = .ok (.message (.leaveRet true ("a/".toList ++ bytesOf 0x2669))) := by
  have sp : Space " ".toList := by intro c hc; simp only [List.mem_cons, List.not_mem_nil, or_false, String.reduceToList] at hc; subst hc; decide
  have nl : Space "\n".toList := by intro c hc; simp only [List.mem_cons, List.not_mem_nil, or_false, String.reduceToList] at hc; subst hc; decide
  have hm : StringText ("a/".toList ++ bytesOf 0x2669) "a\\/\\u2669".toList := by
    have h3 : StringText (bytesOf 0x2669 ++ []) ("\\u2669".toList ++ []) :=
      .cons (.hex 0x2669 ⟨by decide, by decide⟩ (by decide) "2669".toList ⟨'2', '6', '6', '9', rfl, .inl rfl, .inl rfl, .inl rfl, .inl rfl⟩) .nil
    have h2 := StringText.cons (.letter 0x2F '/' (by decide)) h3
    exact StringText.cons (.raw 0x61 ⟨by decide, by decide⟩ (by decide) (by decide) (by decide)) h2
  have h3 := Members.one (k := "Type") (v := .str "MVR_LEAVE_RET".toList) sp (plain_text _ (by decide)) space_nil space_nil
    (.str (plain_text _ (by decide))) sp
  have h2 := Members.more (k := "Message") nl (plain_text _ (by decide)) space_nil space_nil (.str hm) space_nil h3
  have h1 := Members.more (k := "OK") sp (plain_text _ (by decide)) sp sp .yes space_nil h2
  have hd := document_text (Text.obj h1)
  refine ⟨_, hd, ?_, ?_, rfl⟩
  · simp only [Proper, ProperMembers]
    exact ⟨(show ["OK", "Message", "Type"].Nodup by decide), trivial, trivial, trivial, trivial⟩
  constructor
  · intro k hk v hv
    simp only [List.mem_cons, List.not_mem_nil, or_false] at hk
    rcases hk with rfl | rfl | rfl <;> cases hv
  · intro v hv
    cases hv

/-- A text with a comment and a byte order mark: outside RFC 8259, accepted. -/
example : ∃ j, Accepted j (bom ++ "/* a */[1, // b\n2]".toList) ∧ Proper j ∧ ¬ Document j (bom ++ "/* a */[1, // b\n2]".toList) := by
  have one : ∀ (n : Int) (c : Char), Digits [c] → number [c] = n → IntText n [c] := fun n c h e => ⟨[c], h, .inl ⟨rfl, e.symm⟩⟩
  have d1 : Digits ['1'] := ⟨nofun, by simp, by simp⟩
  have d2 : Digits ['2'] := ⟨nofun, by simp, by simp⟩
  have hb : Blank "/* a */".toList := Blank.block (b := [' ', 'a', ' ']) (by decide) (by decide) .nil
  have hl : Blank " // b\n".toList := Blank.space (by decide) (Blank.line (b := [' ', 'b']) (e := '\n') (by decide) (by decide) .nil)
  have he : Elements Blank [.num 1, .num 2] "1, // b\n2".toList :=
    Elements.more .nil (.num (one 1 '1' d1 rfl) (by decide) (by decide)) .nil
      (Elements.one hl (.num (one 2 '2' d2 rfl) (by decide) (by decide)) .nil)
  refine ⟨_, ⟨bom, _, _, [], [], .inr rfl, hb, .arr he, .nil, .inl rfl, rfl⟩, ?_, ?_⟩
  · simp [Proper, ProperElements]
  · rintro ⟨w, u, w', hw, hu, _, e⟩
    obtain ⟨c, t, e', hc⟩ := text_begins hu
    rw [e'] at e
    cases w with
    | nil =>
      simp only [bom, List.cons_append, List.nil_append, List.cons.injEq] at e
      rw [← e.1] at hc
      exact absurd hc (by decide)
    | cons x w =>
      simp only [bom, List.cons_append, List.cons.injEq] at e
      have := hw x (by simp)
      rw [← e.1] at this
      exact absurd this (by decide)

/-- A comma too many, a text cut off, two values: no JSON. -/
example : ∀ t ∈ ["[1,]".toList, "{\"Type\":\"MVR_LEA".toList, "{} {}".toList, "[01]".toList, "".toList], ∀ v, ¬ Accepted v t := by
  intro t ht v h
  have hk := parse_kept h
  simp only [List.mem_cons, List.not_mem_nil, or_false] at ht
  rcases ht with rfl | rfl | rfl | rfl | rfl
  · rw [show parse "[1,]".toList = .error by rfl] at hk; cases hk
  · rw [show parse "{\"Type\":\"MVR_LEA".toList = .error by rfl] at hk; cases hk
  · rw [show parse "{} {}".toList = .error by rfl] at hk; cases hk
  · rw [show parse "[01]".toList = .error by rfl] at hk; cases hk
  · rw [show parse "".toList = .error by rfl] at hk; cases hk

end Verif.Xchg
