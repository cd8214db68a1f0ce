import Verif.Xchg.Session
import Verif.Xchg.BufferProps

/-!
# Lemmas about conversations
-/

namespace Verif.Xchg

/-! ### Specification: what arrives -/

/-- The bytes that arrive before the connection fails, if it does. -/
def arrived : List Net → List Byte
  | [] => []
  | .fail :: _ => []
  | .data b :: t => b ++ arrived t

/-- The connection fails. -/
def fails : List Net → Bool
  | [] => false
  | .fail :: _ => true
  | .data _ :: t => fails t

/-! ### Reading in pieces -/

theorem write_two (m : List Byte) (off : Nat) (a b : List Byte) :
    write m off (a ++ b) = write m off a >>= fun m => write m (off + a.length) b := by
  unfold write
  by_cases h1 : off + a.length > m.length
  · rw [if_pos h1, if_pos (by simp; omega)]
    rfl
  · rw [if_neg h1]
    show _ = if off + a.length + b.length > (m.take off ++ a ++ m.drop (off + a.length)).length then _ else _
    have hl : (m.take off ++ a ++ m.drop (off + a.length)).length = m.length := by simp; omega
    rw [hl]
    by_cases h2 : off + a.length + b.length > m.length
    · rw [if_pos h2, if_pos (by simp; omega)]
    · rw [if_neg h2, if_neg (by simp; omega)]
      congr 1
      have e1 : (m.take off ++ a).length = off + a.length := by simp; omega
      have t1 : (m.take off ++ a ++ m.drop (off + a.length)).take (off + a.length) = m.take off ++ a := by
        rw [← e1, List.take_left]
      have t2 : (m.take off ++ a ++ m.drop (off + a.length)).drop (off + a.length + b.length) = m.drop (off + (a ++ b).length) := by
        rw [← List.drop_drop, ← e1, List.drop_left, e1, List.drop_drop, List.length_append, Nat.add_assoc]
      rw [t1, t2]
      simp

theorem write_length {m m' : List Byte} {off : Nat} {d : List Byte} (h : write m off d = .ok m') : m'.length = m.length ∧ off + d.length ≤ m.length := by
  unfold write at h
  split at h
  · cases h
  · injection h with h
    subst h
    exact ⟨by simp; omega, by omega⟩

/-- The memory of a packet has the size the packet believes in, and room for a header. -/
def Packet.Good (p : Packet) : Prop := ∃ m, p.data.mem = some m ∧ p.data.cap = m.length ∧ headerLength ≤ m.length

theorem Packet.write_two (p : Packet) (off : Nat) (a b : List Byte) :
    p.write off (a ++ b) = p.write off a >>= fun p => p.write (off + a.length) b := by
  unfold Packet.write
  cases e : p.data.mem with
  | none => rfl
  | some m =>
    simp only
    rw [Xchg.write_two]
    cases e1 : Xchg.write m off a with
    | error x => rfl
    | ok m' => rfl

theorem Packet.write_nil (p : Packet) {m : List Byte} (hm : p.data.mem = some m) (off : Nat) (ho : off ≤ m.length) : p.write off [] = .ok p := by
  rw [Packet.write_mem p hm]
  unfold Xchg.write
  rw [if_neg (by simp; omega)]
  simp only [List.append_nil, List.length_nil, Nat.add_zero, List.take_append_drop]
  show Except.ok { p with data := { p.data with mem := some m } } = _
  rw [← hm]

theorem Packet.write_keeps {p q : Packet} {m : List Byte} (hm : p.data.mem = some m) {off : Nat} {d : List Byte} (h : p.write off d = .ok q) :
    ∃ m', q.data.mem = some m' ∧ m'.length = m.length ∧ off + d.length ≤ m.length ∧ q = { p with data := { p.data with mem := some m' } } := by
  rw [Packet.write_mem p hm] at h
  cases e : Xchg.write m off d with
  | error x => rw [e] at h; cases h
  | ok m' =>
    rw [e] at h
    injection h with h
    subst h
    exact ⟨m', rfl, (write_length e).1, (write_length e).2, rfl⟩

/-- However the bytes are cut into pieces, the memory gets the bytes that arrive. -/
theorem readInto_eq (net : List Net) : ∀ (p : Packet) (m : List Byte) (off n : Nat), p.data.mem = some m → off ≤ m.length →
    ∃ rest, arrived rest = (arrived net).drop n ∧ fails rest = fails net ∧
      readInto p off n net = p.write off ((arrived net).take n) >>= fun p =>
        .ok (p, if n ≤ (arrived net).length then .full rest else if fails net then .broken else .waiting) := by
  induction net with
  | nil =>
    intro p m off n hm ho
    refine ⟨[], by simp [arrived], rfl, ?_⟩
    rw [readInto]
    simp only [arrived, List.take_nil]
    rw [Packet.write_nil p hm off ho]
    show _ = Except.ok (p, _)
    congr 2
    by_cases h : n = 0
    · simp [h]
    · simp [h, fails]
  | cons a t ih =>
    intro p m off n hm ho
    cases a with
    | fail =>
      refine ⟨.fail :: t, by simp [arrived], rfl, ?_⟩
      rw [readInto]
      simp only [arrived, List.take_nil]
      rw [Packet.write_nil p hm off ho]
      show _ = Except.ok (p, _)
      congr 2
      by_cases h : n = 0
      · simp [h]
      · simp [h, fails]
    | data b =>
      rw [readInto]
      simp only [arrived, fails]
      by_cases h : n = 0
      · subst h
        refine ⟨.data b :: t, rfl, rfl, ?_⟩
        rw [if_pos rfl, List.take_zero, Packet.write_nil p hm off ho]
        rfl
      · rw [if_neg h]
        by_cases hb : n ≤ b.length
        · refine ⟨.data (b.drop n) :: t, ?_, rfl, ?_⟩
          · rw [arrived, List.drop_append_of_le_length hb]
          · have hle : n ≤ (b ++ arrived t).length := by rw [List.length_append]; omega
            rw [if_pos hb, List.take_append_of_le_length hb]
            simp only [hle, if_true]
            rfl
        · rw [if_neg hb]
          have ht : (b ++ arrived t).take n = b ++ (arrived t).take (n - b.length) := by
            rw [List.take_append, List.take_of_length_le (by omega)]
          have hdrop : (b ++ arrived t).drop n = (arrived t).drop (n - b.length) := by
            rw [List.drop_append, List.drop_of_length_le (l := b) (by omega), List.nil_append]
          rw [ht, Packet.write_two]
          cases e : p.write off b with
          | error x =>
            obtain ⟨rest, r1, r2, _⟩ := ih p m off (n - b.length) hm ho
            exact ⟨rest, by rw [r1, hdrop], r2, rfl⟩
          | ok q =>
            obtain ⟨m', hm', hl, hle, _⟩ := Packet.write_keeps hm e
            obtain ⟨rest, r1, r2, r3⟩ := ih q m' (off + b.length) (n - b.length) hm' (by omega)
            refine ⟨rest, by rw [r1, hdrop], r2, ?_⟩
            show readInto q (off + b.length) (n - b.length) t = _
            rw [r3]
            have : (n - b.length ≤ (arrived t).length) = (n ≤ (b ++ arrived t).length) := by
              rw [List.length_append]; exact propext ⟨fun h => by omega, fun h => by omega⟩
            simp only [this]
            rfl

/-! ### A session in terms of `receive` -/

theorem growTo_good (e : Env) (b c : Buf) (n : Nat) (h : ∃ m, b.mem = some m ∧ b.cap = m.length ∧ headerLength ≤ m.length)
    (hg : b.growTo e n = .ok c) : ∃ m, c.mem = some m ∧ c.cap = m.length ∧ headerLength ≤ m.length := by
  obtain ⟨m, hm, hc, hh⟩ := h
  unfold Buf.growTo at hg
  simp only at hg
  split at hg
  · rename_i hlt
    unfold alloc at hg
    split at hg
    · cases hg
    · rw [hm] at hg
      simp only at hg
      rw [ok_bind] at hg
      cases e1 : read m 0 b.size with
      | error x => rw [e1] at hg; cases hg
      | ok old =>
        rw [e1, ok_bind] at hg
        cases e2 : write ((List.range ((n + 1) % 2 ^ 64)).map e.fill) 0 old with
        | error x => rw [e2] at hg; cases hg
        | ok t =>
          rw [e2] at hg
          injection hg with hg
          subst hg
          have := (write_length e2).1
          simp only [List.length_map, List.length_range] at this
          exact ⟨t, rfl, this.symm, by omega⟩
  · injection hg with hg
    subst hg
    exact ⟨m, hm, hc, hh⟩

theorem decodeHeader_good (e : Env) (p q : Packet) (ok : Bool) (h : p.Good) (hd : p.decodeHeader e = .ok (ok, q)) : q.Good := by
  obtain ⟨m, hm, hc, hh⟩ := h
  unfold headerLength at hh
  have r : ∀ (x : Packet), x.data = p.data → ∀ off n, off + n ≤ 28 → ∃ d, x.read off n = .ok d := by
    intro x hx off n hn
    rw [Packet.read_mem x (hx ▸ hm), read_ok (by omega)]
    exact ⟨_, rfl⟩
  unfold Packet.decodeHeader at hd
  obtain ⟨d0, e0⟩ := r p rfl 0 4 (by omega)
  rw [e0, ok_bind] at hd
  simp only at hd
  split at hd
  · injection hd with hd
    injection hd with _ hd
    subst hd
    exact ⟨m, hm, hc, hh⟩
  · generalize hp1 : ({ p with flag := swapEndian 4 (ofLE d0) } : Packet) = p1 at hd
    have hx : p1.data = p.data := by rw [← hp1]
    obtain ⟨d1, e1⟩ := r p1 hx 4 4 (by omega)
    obtain ⟨d2, e2⟩ := r p1 hx 8 4 (by omega)
    obtain ⟨d3, e3⟩ := r p1 hx 12 4 (by omega)
    obtain ⟨d4, e4⟩ := r p1 hx 16 4 (by omega)
    obtain ⟨d5, e5⟩ := r p1 hx 20 8 (by omega)
    rw [e1, ok_bind, e2, ok_bind, e3, ok_bind, e4, ok_bind, e5, ok_bind] at hd
    cases e6 : p.data.growTo e (swapEndian 8 (ofLE d5)) with
    | error x => rw [e6] at hd; cases hd
    | ok c =>
      rw [e6] at hd
      injection hd with hd
      injection hd with _ hd
      subst hd
      exact growTo_good e _ _ _ ⟨m, hm, hc, hh⟩ e6

theorem decodeHeader_flag (e : Env) (p q : Packet) (ok : Bool) (m f : List Byte) (hm : p.data.mem = some m) (hh : headerLength ≤ m.length)
    (h4 : p.read 0 4 = .ok f) (hd : p.decodeHeader e = .ok (ok, q)) : ok = decide (swapEndian 4 (ofLE f) = magic) := by
  unfold headerLength at hh
  unfold Packet.decodeHeader at hd
  rw [h4, ok_bind] at hd
  simp only at hd
  split at hd
  · rename_i hne
    have := (Prod.mk.inj (Except.ok.inj hd)).1
    rw [← this]
    exact (decide_eq_false hne).symm
  · rename_i hne
    rw [decide_eq_true (Decidable.not_not.1 hne)]
    generalize hp1 : ({ p with flag := swapEndian 4 (ofLE f) } : Packet) = p1 at hd
    have hx : p1.data = p.data := by rw [← hp1]
    have r : ∀ off n, off + n ≤ 28 → ∃ d, p1.read off n = .ok d := by
      intro off n hn
      rw [Packet.read_mem p1 (hx ▸ hm), read_ok (by omega)]
      exact ⟨_, rfl⟩
    obtain ⟨d1, e1⟩ := r 4 4 (by omega)
    obtain ⟨d2, e2⟩ := r 8 4 (by omega)
    obtain ⟨d3, e3⟩ := r 12 4 (by omega)
    obtain ⟨d4, e4⟩ := r 16 4 (by omega)
    obtain ⟨d5, e5⟩ := r 20 8 (by omega)
    rw [e1, ok_bind, e2, ok_bind, e3, ok_bind, e4, ok_bind, e5, ok_bind] at hd
    cases e6 : p.data.growTo e (swapEndian 8 (ofLE d5)) with
    | error x => rw [e6] at hd; cases hd
    | ok c =>
      rw [e6, ok_bind] at hd
      exact (Prod.mk.inj (Except.ok.inj hd)).1.symm

theorem newPacket_good (e : Env) (v0 : Nat) (p : Packet) (h : newPacket e v0 = .ok p) : p.Good := by
  unfold newPacket at h
  by_cases hl : initialSize + 1 ≤ e.limit
  · have := newPacket_eq e v0 hl
    unfold newPacket at this
    rw [this] at h
    injection h with h
    subst h
    refine ⟨_, rfl, by simp, ?_⟩
    simp only [List.length_map, List.length_range]
    decide
  · have : Buf.empty.growTo e initialSize = .error .badAlloc := by
      unfold Buf.growTo Buf.empty alloc
      simp only
      rw [if_pos (by decide), if_pos (by
        rw [show (initialSize + 1) % 2 ^ 64 = initialSize + 1 by decide]; omega)]
      rfl
    rw [this] at h
    cases h

/-- The magic number is not there. -/
def badMagic (wire : List Byte) : Bool := decide (swapEndian 4 (ofLE (wire.take 4)) ≠ magic)

theorem header_read (p q : Packet) (m m' wire : List Byte) (hm : p.data.mem = some m) (hh : headerLength ≤ m.length) (hlen : headerLength ≤ wire.length)
    (hq : p.write 0 (wire.take headerLength) = .ok q) (hm' : q.data.mem = some m') : q.read 0 4 = .ok (wire.take 4) := by
  have hmem : m' = wire.take headerLength ++ m.drop headerLength := by
    rw [Packet.write_mem p hm] at hq
    rw [write_ok (by rw [List.length_take]; omega), ok_bind] at hq
    rw [← Except.ok.inj hq] at hm'
    rw [← Option.some.inj hm']
    simp only [List.take_zero, List.nil_append, Nat.zero_add, List.length_take, Nat.min_eq_left hlen]
  have hl : m'.length = m.length := by
    rw [hmem, List.length_append, List.length_take, List.length_drop]
    omega
  rw [Packet.read_mem q hm', read_ok (by unfold headerLength at hh; omega)]
  congr 1
  rw [List.drop_zero, hmem, List.take_append_of_le_length (by rw [List.length_take]; unfold headerLength at *; omega), List.take_take]
  rfl

theorem serve_receive (e : Env) (v0 v1 : Nat) (ep : Bool) (h : Got → Msg) (net : List Net) :
    serve e v0 v1 ep h net = receive e v0 (arrived net) >>= fun r =>
      match r with
      | some p => respond e v1 ep h p
      | none => .ok (if fails net ∨ (headerLength ≤ (arrived net).length ∧ badMagic (arrived net) = true) then .closed else .waiting) := by
  unfold serve receive
  cases en : newPacket e v0 with
  | error x => rfl
  | ok p =>
    obtain ⟨m, hm, hc, hh⟩ := newPacket_good e v0 p en
    simp only [ok_bind]
    obtain ⟨rest, r1, r2, r3⟩ := readInto_eq net p m 0 headerLength hm (Nat.zero_le _)
    rw [r3]
    by_cases hlen : headerLength ≤ (arrived net).length
    · rw [if_neg (show ¬ (arrived net).length < headerLength by omega)]
      have hw : ∃ q, p.write 0 ((arrived net).take headerLength) = .ok q := by
        rw [Packet.write_mem p hm, write_ok (by rw [List.length_take]; omega)]
        exact ⟨_, rfl⟩
      obtain ⟨q, hq⟩ := hw
      obtain ⟨m', hm', hl', hle, eq⟩ := Packet.write_keeps hm hq
      have hgq : q.Good := ⟨m', hm', by rw [eq]; show p.data.cap = _; omega, by omega⟩
      rw [hq]
      simp only [ok_bind]
      rw [if_pos hlen]
      simp only
      cases ed : q.decodeHeader e with
      | error x => rfl
      | ok r =>
        obtain ⟨ok, p2⟩ := r
        simp only [ok_bind]
        -- the magic number that was looked at
        have hmagic : badMagic (arrived net) = !ok := by
          have h4 := header_read p q m m' (arrived net) hm hh hlen hq hm'
          have := decodeHeader_flag e q p2 ok m' ((arrived net).take 4) hm' (by omega) h4 ed
          unfold badMagic
          rw [this]
          simp
        cases ok with
        | false =>
          have hcl : fails net = true ∨ headerLength ≤ (arrived net).length ∧ badMagic (arrived net) = true := .inr ⟨hlen, by rw [hmagic]; rfl⟩
          show Except.ok Served.closed = Except.ok _
          rw [if_pos hcl]
        | true =>
          obtain ⟨m2, hm2, hc2, hh2⟩ := decodeHeader_good e q p2 true hgq ed
          obtain ⟨rest', s1, s2, s3⟩ := readInto_eq rest p2 m2 headerLength p2.bodyLength hm2 hh2
          show (readInto p2 headerLength p2.bodyLength rest >>= _) = _
          rw [s3, r1]
          show _ = ((p2.write headerLength (((arrived net).drop headerLength).take p2.bodyLength) >>= _) >>= _)
          cases ew : p2.write headerLength (((arrived net).drop headerLength).take p2.bodyLength) with
          | error x => rfl
          | ok p3 =>
            obtain ⟨m3, hm3, _, _, e3⟩ := Packet.write_keeps hm2 ew
            have hb3 : p3.bodyLength = p2.bodyLength := by rw [e3]
            simp only [ok_bind]
            rw [hb3]
            by_cases hb : p2.bodyLength ≤ ((arrived net).drop headerLength).length
            · rw [if_pos hb, if_neg (show ¬ ((arrived net).drop headerLength).length < p2.bodyLength by omega)]
              rfl
            · rw [if_neg hb, if_pos (show ((arrived net).drop headerLength).length < p2.bodyLength by omega)]
              show _ = Except.ok _
              rw [hmagic, r2]
              cases fails net with
              | true => rfl
              | false => simp; rfl
    · rw [if_pos (show (arrived net).length < headerLength by omega)]
      have hw : ∃ q, p.write 0 ((arrived net).take headerLength) = .ok q := by
        rw [Packet.write_mem p hm, write_ok (by rw [List.length_take]; omega)]
        exact ⟨_, rfl⟩
      obtain ⟨q, hq⟩ := hw
      rw [hq]
      simp only [ok_bind]
      rw [if_neg hlen]
      show _ = Except.ok _
      cases fails net with
      | true => rfl
      | false => simp [hlen]; rfl

/-- What the client makes of the bytes that arrive. -/
def answer (e : Env) (v0 : Nat) (wire : List Byte) : Except Fault (Option Packet) := do
  let p ← newPacket e v0
  if wire.length < headerLength then return none
  else do
    let p ← p.write 0 (wire.take headerLength)
    let (_, p) ← p.decodeHeader e
    let p ← p.write headerLength ((wire.drop headerLength).take p.bodyLength)
    if (wire.drop headerLength).length < p.bodyLength then return none else return some p

theorem ask_answer (e : Env) (v0 : Nat) (l : Line) (h1 : l.resolved = true) (h2 : l.connected = true) (h3 : l.written = true) :
    ask e v0 l = answer e v0 (arrived l.net) >>= fun r =>
      match r with
      | some p => if l.endpoint then .ok (.packet p) else .ok .thrown
      | none => .ok .failed := by
  unfold ask answer
  rw [h1, h2, h3]
  cases en : newPacket e v0 with
  | error x => rfl
  | ok p =>
    obtain ⟨m, hm, hc, hh⟩ := newPacket_good e v0 p en
    simp only [ok_bind, Bool.not_true, Bool.false_eq_true, if_false]
    obtain ⟨rest, r1, r2, r3⟩ := readInto_eq l.net p m 0 headerLength hm (Nat.zero_le _)
    rw [r3]
    have hw : ∃ q, p.write 0 ((arrived l.net).take headerLength) = .ok q := by
      rw [Packet.write_mem p hm, write_ok (by rw [List.length_take]; omega)]
      exact ⟨_, rfl⟩
    obtain ⟨q, hq⟩ := hw
    by_cases hlen : headerLength ≤ (arrived l.net).length
    · rw [if_neg (show ¬ (arrived l.net).length < headerLength by omega)]
      obtain ⟨m', hm', hl', hle, eq⟩ := Packet.write_keeps hm hq
      have hgq : q.Good := ⟨m', hm', by rw [eq]; show p.data.cap = _; omega, by omega⟩
      rw [hq]
      simp only [ok_bind]
      rw [if_pos hlen]
      simp only
      cases ed : q.decodeHeader e with
      | error x => rfl
      | ok r =>
        obtain ⟨ok, p2⟩ := r
        simp only [ok_bind]
        obtain ⟨m2, hm2, hc2, hh2⟩ := decodeHeader_good e q p2 ok hgq ed
        obtain ⟨rest', s1, s2, s3⟩ := readInto_eq rest p2 m2 headerLength p2.bodyLength hm2 hh2
        rw [s3, r1]
        cases ew : p2.write headerLength (((arrived l.net).drop headerLength).take p2.bodyLength) with
        | error x => rfl
        | ok p3 =>
          obtain ⟨m3, hm3, _, _, e3⟩ := Packet.write_keeps hm2 ew
          have hb3 : p3.bodyLength = p2.bodyLength := by rw [e3]
          simp only [ok_bind]
          rw [hb3]
          by_cases hb : p2.bodyLength ≤ ((arrived l.net).drop headerLength).length
          · rw [if_pos hb, if_neg (show ¬ ((arrived l.net).drop headerLength).length < p2.bodyLength by omega)]
            cases l.endpoint <;> rfl
          · rw [if_neg hb, if_pos (show ((arrived l.net).drop headerLength).length < p2.bodyLength by omega)]
            cases fails rest <;> rfl
    · rw [if_pos (show (arrived l.net).length < headerLength by omega)]
      rw [hq]
      simp only [ok_bind]
      rw [if_neg hlen]
      cases fails l.net <;> rfl

/-- As long as the magic number is right, both sides make the same of what arrives. -/
theorem answer_receive (e : Env) (v0 : Nat) (wire : List Byte) (hb : badMagic wire = false) : answer e v0 wire = receive e v0 wire := by
  unfold answer receive
  cases en : newPacket e v0 with
  | error x => rfl
  | ok p =>
    obtain ⟨m, hm, hc, hh⟩ := newPacket_good e v0 p en
    simp only [ok_bind]
    by_cases hlen : wire.length < headerLength
    · rw [if_pos hlen, if_pos hlen]
    · rw [if_neg hlen, if_neg hlen]
      have hw : ∃ q, p.write 0 (wire.take headerLength) = .ok q := by
        rw [Packet.write_mem p hm, write_ok (by rw [List.length_take]; omega)]
        exact ⟨_, rfl⟩
      obtain ⟨q, hq⟩ := hw
      obtain ⟨m', hm', hl', hle, eq⟩ := Packet.write_keeps hm hq
      rw [hq]
      simp only [ok_bind]
      cases ed : q.decodeHeader e with
      | error x => rfl
      | ok r =>
        obtain ⟨ok, p2⟩ := r
        have h4 := header_read p q m m' wire hm hh (by omega) hq hm'
        have hok := decodeHeader_flag e q p2 ok m' (wire.take 4) hm' (by omega) h4 ed
        unfold badMagic at hb
        have : ok = true := by rw [hok]; simpa using hb
        subst this
        rfl

theorem magic_header (version number count type len : Nat) (rest : List Byte) :
    badMagic (header 778682 version number count type len ++ rest) = false := by
  unfold badMagic
  have h4 : (header 778682 version number count type len ++ rest).take 4 = be 4 778682 := by
    rw [List.take_append_of_le_length (by rw [header_length]; decide)]
    unfold header
    simp only [List.append_assoc]
    rw [List.take_append_of_le_length (by simp [be_length]), List.take_of_length_le (by simp [be_length])]
  rw [h4, swap_be 4 778682 (by decide)]
  rfl

/-- A packet and more behind it: the packet arrives. -/
theorem receive_extra (e : Env) (v0 version number count type : Nat) (body extra : List Byte)
    (hl : initialSize + 1 ≤ e.limit) (hv : version < 2 ^ 32) (hn : number < 2 ^ 32) (hc : count < 2 ^ 32) (ht : type < 2 ^ 32)
    (hb : body.length ≤ maxBody) :
    ∃ p, receive e v0 (wireFormat version number count type body ++ extra) = .ok (some p) ∧ p.type = type ∧ p.body = .ok body := by
  have hw : wireFormat version number count type body ++ extra = header 778682 version number count type body.length ++ (body ++ extra) := by
    simp [wireFormat, header]
  have hb64 : body.length < 2 ^ 64 := by unfold maxBody at hb; omega
  obtain ⟨t, htl, hr⟩ := receive_eq e v0 778682 version number count type body.length (body ++ extra) hl (by decide) hv hn hc ht hb64
  rw [hw, hr, if_neg (by simp)]
  rw [growTo_enough _ _ _ (by
    unfold maxBody at hb; unfold initialSize; rw [Nat.mod_eq_of_lt (by omega)]; simp only; omega), ok_bind]
  obtain ⟨x, u, rfl, hx⟩ := exists_split t body.length (by omega)
  rw [Packet.write_mem _ rfl, List.take_left,
    write_at (off := headerLength) (pre := header 778682 version number count type body.length) (x := x) (rest := u) (by simp)
      (header_length _ _ _ _ _ _) hx]
  simp only [ok_bind]
  rw [if_neg (by simp)]
  refine ⟨_, rfl, rfl, ?_⟩
  unfold Packet.body
  rw [Packet.read_mem _ rfl]
  exact read_at (rest := u) rfl (header_length _ _ _ _ _ _) rfl

/-- Less than a packet: nothing arrives. -/
theorem receive_short (e : Env) (v0 version number count type : Nat) (body wire missing : List Byte)
    (hl : initialSize + 1 ≤ e.limit) (hv : version < 2 ^ 32) (hn : number < 2 ^ 32) (hc : count < 2 ^ 32) (ht : type < 2 ^ 32)
    (hb : body.length ≤ maxBody) (hw : wire ++ missing = wireFormat version number count type body) (hm : missing ≠ []) :
    receive e v0 wire = .ok none ∧ answer e v0 wire = .ok none ∧ ¬ (headerLength ≤ wire.length ∧ badMagic wire = true) := by
  have hml : 0 < missing.length := List.length_pos_iff.2 hm
  have hwf : wireFormat version number count type body = header 778682 version number count type body.length ++ body := by
    simp [wireFormat, header]
  by_cases hlen : wire.length < headerLength
  · refine ⟨?_, ?_, fun h => by omega⟩
    · unfold receive
      rw [newPacket_eq e v0 hl, ok_bind, if_pos hlen]
      rfl
    · unfold answer
      rw [newPacket_eq e v0 hl, ok_bind, if_pos hlen]
      rfl
  · have hb64 : body.length < 2 ^ 64 := by unfold maxBody at hb; omega
    rw [hwf] at hw
    have h28 : (header 778682 version number count type body.length).length = 28 := header_length _ _ _ _ _ _
    obtain ⟨h, rest, rfl, hh⟩ := exists_split wire 28 (by unfold headerLength at hlen; omega)
    rw [List.append_assoc] at hw
    obtain ⟨e1, e2⟩ := List.append_inj hw (by omega)
    subst e1
    have hrest : rest.length < body.length := by rw [← e2, List.length_append]; omega
    have hr0 : receive e v0 (header 778682 version number count type body.length ++ rest) = .ok none := by
      obtain ⟨t, htl, hr⟩ := receive_eq e v0 778682 version number count type body.length rest hl (by decide) hv hn hc ht hb64
      rw [hr, if_neg (by simp), growTo_enough _ _ _ (by
        unfold maxBody at hb; unfold initialSize; rw [Nat.mod_eq_of_lt (by omega)]; simp only; omega), ok_bind]
      rw [Packet.write_mem _ rfl, write_ok (by rw [List.length_append, header_length, htl, List.length_take]; unfold headerLength; omega)]
      simp only [ok_bind]
      rw [if_pos hrest]
    refine ⟨hr0, ?_, ?_⟩
    · rw [answer_receive e v0 _ (magic_header _ _ _ _ _ _), hr0]
    · rintro ⟨_, hbad⟩
      rw [magic_header] at hbad
      cases hbad

/-- A reply with a wrong magic number leaves the packet as it was made: type 0, no body. -/
theorem answer_magic (e : Env) (v0 : Nat) (wire : List Byte) (hl : initialSize + 1 ≤ e.limit) (hlen : 28 ≤ wire.length)
    (hm : swapEndian 4 (ofLE (wire.take 4)) ≠ 778682) : ∃ p, answer e v0 wire = .ok (some p) ∧ p.type = 0 ∧ p.body = .ok [] := by
  have key : ∀ p : Packet, p.type = 0 → p.bodyLength = 0 → p.Good →
      ∃ q, (do
        let p ← p.write 0 (wire.take headerLength)
        let (_, p) ← p.decodeHeader e
        let p ← p.write headerLength ((wire.drop headerLength).take p.bodyLength)
        if (wire.drop headerLength).length < p.bodyLength then return none else return some p : Except Fault (Option Packet)) = .ok (some q) ∧
        q.type = 0 ∧ q.body = .ok [] := by
    intro p ht hb hg
    obtain ⟨m, hmem, hc, hh⟩ := hg
    have hh' := hh
    unfold headerLength at hh'
    have hw : ∃ q, p.write 0 (wire.take headerLength) = .ok q := by
      rw [Packet.write_mem p hmem, write_ok (by simp only [headerLength, List.length_take]; omega)]
      exact ⟨_, rfl⟩
    obtain ⟨q, hq⟩ := hw
    obtain ⟨m', hm', hl', _, heq⟩ := Packet.write_keeps hmem hq
    have hrd := header_read p q m m' wire hmem hh (by unfold headerLength; omega) hq hm'
    rw [hq, ok_bind]
    have hdec : q.decodeHeader e = .ok (false, { q with flag := swapEndian 4 (ofLE (wire.take 4)) }) := by
      unfold Packet.decodeHeader
      rw [hrd, ok_bind]
      simp only
      rw [if_pos (show swapEndian 4 (ofLE (wire.take 4)) ≠ magic from hm)]
      rfl
    have hqb : q.bodyLength = 0 := by rw [heq]; exact hb
    have hqt : q.type = 0 := by rw [heq]; exact ht
    rw [hdec, ok_bind]
    have hx : ∃ x : Packet, x = { q with flag := swapEndian 4 (ofLE (wire.take 4)) } := ⟨_, rfl⟩
    obtain ⟨x, hx⟩ := hx
    have hxm : x.data.mem = some m' := by rw [hx]; exact hm'
    have hxb : x.bodyLength = 0 := by rw [hx]; exact hqb
    have hxt : x.type = 0 := by rw [hx]; exact hqt
    rw [← hx]
    simp only [hxb, List.take_zero]
    rw [Packet.write_nil x hxm headerLength (by rw [hl']; exact hh), ok_bind]
    simp only [hxb, Nat.not_lt_zero, if_false]
    refine ⟨x, rfl, hxt, ?_⟩
    unfold Packet.body
    rw [hxb, Packet.read_mem x hxm, read_ok (by rw [hl']; omega)]
    simp
  have hn := newPacket_eq e v0 hl
  unfold answer
  generalize hp0 : newPacket e v0 = r at hn
  subst hn
  rw [ok_bind, if_neg (by unfold headerLength; omega)]
  exact key _ rfl rfl (newPacket_good e v0 _ hp0)

end Verif.Xchg
