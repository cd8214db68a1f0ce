import Verif.Mdns.Records

/-!
# Lemmas: building packets
-/

namespace Verif.Mdns

theorem has_end (p q : Bytes) : Has (p ++ q) p.length q := ⟨p, [], by simp, rfl⟩

theorem has_in (p q r : Bytes) : Has (p ++ q ++ r) p.length q := ⟨p, r, rfl, rfl⟩

theorem NameAt.app {p : Bytes} {off fin : Nat} {ls : List Bytes} (h : NameAt p off ls fin) (q : Bytes) : NameAt (p ++ q) off ls fin := by
  induction h with
  | stop h => exact .stop (h.app q)
  | label hl h64 hh _ ih => exact .label hl h64 (hh.app q) ih
  | ref hto hr hl h64 hh _ ih => exact .ref hto (hr.app q) hl h64 (hh.app q) ih

theorem NameIs.app {p n : Bytes} {off fin : Nat} (h : NameIs p off n fin) (q : Bytes) : NameIs (p ++ q) off n fin := by
  obtain ⟨ls, h, e, hl⟩ := h
  exact ⟨ls, h.app q, e, hl⟩

theorem DataAt.app {p n : Bytes} {off fin type : Nat} {i : Item} (h : DataAt p off fin n type i) (q : Bytes) :
    DataAt (p ++ q) off fin n type i := by
  cases h with
  | ptr h => exact .ptr (h.app q)
  | srv h hp hn hne => exact .srv (h.app q) hp (hn.app q) hne
  | a h h4 hf => exact .a (h.app q) h4 hf
  | aaaa h h4 hf => exact .aaaa (h.app q) h4 hf
  | txt h hf => exact .txt (h.app q) hf
  | other h1 h2 h3 h4 h5 h hf => exact .other h1 h2 h3 h4 h5 (h.app q) hf

theorem RecordAt.app {p : Bytes} {off fin : Nat} {i : Item} (h : RecordAt p off i fin) (q : Bytes) : RecordAt (p ++ q) off i fin := by
  obtain ⟨n, e, type, cls, ttl, len, hn, ht, hl, hh, hf, hd⟩ := h
  exact ⟨n, e, type, cls, ttl, len, hn.app q, ht, hl, hh.app q, hf, hd.app q⟩

theorem RecordsAt.app {p : Bytes} {off fin : Nat} {is : List Item} (h : RecordsAt p off is fin) (q : Bytes) :
    RecordsAt (p ++ q) off is fin := by
  induction h with
  | none => exact .none
  | one h _ ih => exact .one (h.app q) ih

theorem RecordsAt.trans {p : Bytes} {off mid fin : Nat} {is js : List Item} (h : RecordsAt p off is mid) (h' : RecordsAt p mid js fin) :
    RecordsAt p off (is ++ js) fin := by
  induction h with
  | none => exact h'
  | one h _ ih => exact .one h (ih h')

/-- A name that can be referred to. -/
def RefTo (p : Bytes) (to : Nat) (ls : List Bytes) : Prop :=
  to < 16384 ∧ ∃ l ls' fin, ls = l :: ls' ∧ l ≠ [] ∧ l.length < 64 ∧ Has p to (BitVec.ofNat 8 l.length :: l) ∧ NameAt p (to + 1 + l.length) ls' fin

theorem RefTo.app {p : Bytes} {to : Nat} {ls : List Bytes} (h : RefTo p to ls) (q : Bytes) : RefTo (p ++ q) to ls := by
  obtain ⟨ht, l, ls', fin, e, hl, h64, hh, hn⟩ := h
  exact ⟨ht, l, ls', fin, e, hl, h64, hh.app q, hn.app q⟩

theorem RefTo.name {p : Bytes} {to off : Nat} {ls : List Bytes} (h : RefTo p to ls) (hr : Has p off (net16 (0xC000 + to))) :
    NameAt p off ls (off + 2) := by
  obtain ⟨ht, l, ls', fin, rfl, hl, h64, hh, hn⟩ := h
  exact .ref ht hr hl h64 hh hn

/-- The bytes of labels. -/
def wire (ls : List Bytes) : Bytes := ls.flatMap fun l => BitVec.ofNat 8 l.length :: l

/-- A label: 1 to 63 bytes. -/
def Label (l : Bytes) : Prop := l ≠ [] ∧ l.length < 64

theorem name_wire {p : Bytes} {off : Nat} (ls : List Bytes) (hv : ∀ l ∈ ls, Label l) (h : Has p off (wire ls ++ [0])) :
    NameAt p off ls (off + (wire ls).length + 1) := by
  induction ls generalizing off with
  | nil => exact .stop (by simpa [wire] using h)
  | cons l ls ih =>
    obtain ⟨h1, h2⟩ := hv l (by simp)
    have e : wire (l :: ls) = (BitVec.ofNat 8 l.length :: l) ++ wire ls := by simp [wire]
    rw [e, List.append_assoc] at h
    have hr := h.right
    have := ih (fun x hx => hv x (by simp [hx])) hr
    rw [e]
    refine .label h1 h2 h.left ?_
    have e2 : off + 1 + l.length = off + (BitVec.ofNat 8 l.length :: l).length := by simp; omega
    have e3 : off + ((BitVec.ofNat 8 l.length :: l) ++ wire ls).length + 1 = off + (BitVec.ofNat 8 l.length :: l).length + (wire ls).length + 1 := by
      rw [List.length_append]; omega
    rw [e2, e3]
    exact this

/-! ### Writing -/

theorem step_some {capacity room : Nat} {acc d : Bytes} {f : Bytes → Out (Option Bytes)} (h : room < capacity - (acc ++ d).length) :
    step capacity room acc (some d) f = f (acc ++ d) := by
  rw [step, if_neg (by omega)]

theorem or_ref (to : Nat) (h : to < 16384) : 0xC000 ||| (to % 65536) = 0xC000 + to := by
  rw [Nat.mod_eq_of_lt (by omega)]
  exact (Nat.two_pow_add_eq_or_of_lt (i := 14) (b := to) (by omega) 3).symm

theorem makeRef_eq (capacity to : Nat) (hc : 2 ≤ capacity) (h : to < 16384) : makeRef capacity to = some (net16 (0xC000 + to)) := by
  rw [makeRef, if_neg (by omega), or_ref to h]

theorem labels_plain (acc h : Bytes) (hd : 46 ∉ h) (hne : acc ++ h ≠ []) : labels acc h = [acc ++ h] := by
  induction h generalizing acc with
  | nil =>
    cases acc with
    | nil => simp at hne
    | cons a acc => simp [labels]
  | cons b bs ih =>
    have hb : b ≠ 46 := fun e => hd (by simp [e])
    have e : labels acc (b :: bs) = labels (acc ++ [b]) bs := by
      cases acc <;> rw [labels, if_neg hb]
    rw [e, ih (acc ++ [b]) (fun hm => hd (List.mem_cons_of_mem _ hm)) (by simp)]
    simp

theorem make_host (capacity : Nat) (host : Bytes) (hd : 46 ∉ host) (hne : host ≠ []) (hc : host.length + 2 ≤ capacity) :
    make capacity host = some (wire [host] ++ [0]) := by
  rw [make, labels_plain [] host hd (by simpa using hne), List.nil_append, makeLabels, if_pos (by omega), makeLabels, if_neg (by omega)]
  simp [wire]

theorem makeWithRef_host (capacity : Nat) (host : Bytes) (to : Nat) (hd : 46 ∉ host) (hne : host ≠ []) (hc : host.length + 2 < capacity)
    (h : to < 16384) : makeWithRef capacity host to = .ok (some (wire [host] ++ net16 (0xC000 + to))) := by
  rw [makeWithRef, make_host capacity host hd hne (by omega)]
  have hl : (wire [host] ++ [0]).length = host.length + 2 := by simp [wire]
  simp only
  rw [if_neg (by omega), hl, makeRef_eq _ to (by omega) h]
  simp

/-- Everything behind the name of a record. -/
def body (type rclass ttl : Nat) (data : Bytes) : Bytes := net16 type ++ net16 rclass ++ net32 ttl ++ net16 data.length ++ data

theorem body_length (type rclass ttl : Nat) (data : Bytes) : (body type rclass ttl data).length = 10 + data.length := by
  simp [body, net16, net32]
  omega

theorem body_has (p : Bytes) (type rclass ttl : Nat) (data : Bytes) :
    Has (p ++ body type rclass ttl data) p.length (net16 type ++ net16 rclass ++ net32 ttl ++ net16 data.length) ∧
    Has (p ++ body type rclass ttl data) (p.length + 10) data := by
  have h := has_end p (body type rclass ttl data)
  refine ⟨h.left, ?_⟩
  have := h.right
  rwa [show (net16 type ++ net16 rclass ++ net32 ttl ++ net16 data.length).length = 10 from rfl] at this

/-- A record at the end of a packet. -/
theorem record_end {p n : Bytes} {off type rclass ttl : Nat} {data : Bytes} {i : Item} (hn : NameIs p off n p.length) (ht : type < 65536)
    (hl : data.length < 65536)
    (hd : DataAt (p ++ body type rclass ttl data) (p.length + 10) (p.length + 10 + data.length) n type i) :
    RecordAt (p ++ body type rclass ttl data) off i (p ++ body type rclass ttl data).length := by
  refine ⟨n, p.length, type, rclass, ttl, data.length, hn.app _, ht, hl, (body_has p type rclass ttl data).1, ?_, ?_⟩
  · rw [List.length_append, body_length]; omega
  · have e : (p ++ body type rclass ttl data).length = p.length + 10 + data.length := by rw [List.length_append, body_length]; omega
    rw [e]
    exact hd

theorem ref_end {p : Bytes} {to : Nat} {ls : List Bytes} (h : RefTo p to ls) (hl : (text ls).length ≤ 256) :
    NameIs (p ++ net16 (0xC000 + to)) p.length (text ls) (p ++ net16 (0xC000 + to)).length := by
  refine ⟨ls, ?_, rfl, hl⟩
  have := (h.app (net16 (0xC000 + to))).name (has_end p _)
  rwa [show p.length + 2 = (p ++ net16 (0xC000 + to)).length from by rw [List.length_append]; rfl] at this

/-- A host and a reference. -/
theorem host_name {p host : Bytes} {off to : Nat} {ls : List Bytes} (hv : Label host) (h : RefTo p to ls) (hoff : off < 16384)
    (hh : Has p off (wire [host] ++ net16 (0xC000 + to))) :
    RefTo p off (host :: ls) ∧ NameAt p off (host :: ls) (off + host.length + 3) := by
  have hl : Has p off (BitVec.ofNat 8 host.length :: host) := by simpa [wire] using hh.left
  have hr := h.name hh.right
  have e : off + (wire [host]).length = off + 1 + host.length := by simp [wire]; omega
  rw [e] at hr
  refine ⟨⟨hoff, host, ls, _, rfl, hv.1, hv.2, hl, hr⟩, ?_⟩
  have e2 : off + host.length + 3 = off + 1 + host.length + 2 := by omega
  rw [e2]
  exact .label hv.1 hv.2 hl hr

end Verif.Mdns
