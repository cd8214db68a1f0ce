import Verif.Xchg.Buffer

/-!
# C20 (packets survive the wire) and C21 (packet buffers stay inside their memory)
-/

namespace Verif.Xchg

/-! ### Specification: the wire format -/

/-- `n`-byte big-endian integer. -/
def be : Nat → Nat → List Byte
  | 0, _ => []
  | n + 1, v => be n (v / 256) ++ [BitVec.ofNat 8 v]

/-- The packet as the MVR specification lays it out. -/
def wireFormat (version number count type : Nat) (body : List Byte) : List Byte :=
  be 4 778682 ++ be 4 version ++ be 4 number ++ be 4 count ++ be 4 type ++ be 8 body.length ++ body

/-! ### Lemmas -/

theorem toLE_length (n v : Nat) : (toLE n v).length = n := by
  induction n generalizing v with
  | zero => rfl
  | succ n ih => simp [toLE, ih]

theorem be_length (n v : Nat) : (be n v).length = n := by
  induction n generalizing v with
  | zero => rfl
  | succ n ih => simp [be, ih]

theorem be_eq (n v : Nat) : be n v = (toLE n v).reverse := by
  induction n generalizing v with
  | zero => rfl
  | succ n ih => simp [be, toLE, ih]

theorem ofLE_toLE (n v : Nat) : ofLE (toLE n v) = v % 256 ^ n := by
  induction n generalizing v with
  | zero => simp [toLE, ofLE, Nat.mod_one]
  | succ n ih =>
    simp only [toLE, ofLE, ih, BitVec.toNat_ofNat]
    rw [show 256 ^ (n + 1) = 256 * 256 ^ n by rw [Nat.pow_succ, Nat.mul_comm], Nat.mod_mul]

theorem toLE_ofLE (bs : List Byte) : toLE bs.length (ofLE bs) = bs := by
  induction bs with
  | nil => rfl
  | cons b bs ih =>
    have hb : b.toNat < 256 := b.isLt
    simp only [List.length_cons, toLE, ofLE]
    congr 1
    · apply BitVec.eq_of_toNat_eq
      rw [BitVec.toNat_ofNat]
      omega
    · have : (b.toNat + 256 * ofLE bs) / 256 = ofLE bs := by omega
      rw [this, ih]

theorem toLE_swap (n v : Nat) : toLE n (swapEndian n v) = be n v := by
  have h := toLE_ofLE (toLE n v).reverse
  rw [List.length_reverse, toLE_length] at h
  rw [be_eq]
  exact h

theorem swap_be (n v : Nat) (h : v < 256 ^ n) : swapEndian n (ofLE (be n v)) = v := by
  unfold swapEndian
  have h1 : toLE n (ofLE (be n v)) = be n v := by
    have := toLE_ofLE (be n v)
    rwa [be_length] at this
  rw [h1, be_eq, List.reverse_reverse, ofLE_toLE, Nat.mod_eq_of_lt h]

theorem read_ok {m : List Byte} {off n : Nat} (h : off + n ≤ m.length) : read m off n = .ok ((m.drop off).take n) := by
  unfold read; rw [if_neg (by omega)]

theorem write_ok {m : List Byte} {off : Nat} {d : List Byte} (h : off + d.length ≤ m.length) :
    write m off d = .ok (m.take off ++ d ++ m.drop (off + d.length)) := by
  unfold write; rw [if_neg (by omega)]

theorem write_fail {m : List Byte} {off : Nat} {d : List Byte} (h : m.length < off + d.length) :
    write m off d = .error .outOfBounds := by
  unfold write; rw [if_pos (by omega)]

theorem alloc_ok {e : Env} {n : Nat} (h : n ≤ e.limit) : alloc e n = .ok ((List.range n).map e.fill) := by
  unfold alloc; rw [if_neg (by omega)]

theorem written_length {m : List Byte} {off : Nat} {d : List Byte} (h : off + d.length ≤ m.length) :
    (m.take off ++ d ++ m.drop (off + d.length)).length = m.length := by
  simp; omega

theorem ok_bind {α β} (a : α) (f : α → Except Fault β) : (Except.ok a >>= f) = f a := rfl

theorem error_bind {α β} (a : Fault) (f : α → Except Fault β) : ((Except.error a : Except Fault α) >>= f) = .error a := rfl

/-- A packet with a real buffer of `n` bytes. -/
def Packet.has (p : Packet) (m : List Byte) : Prop := p.data.mem = some m

/-- Writing successive fields: overwriting the bytes after a prefix. -/
theorem write_after (pre x rest d : List Byte) (h : x.length = d.length) :
    write (pre ++ x ++ rest) pre.length d = .ok (pre ++ d ++ rest) := by
  rw [write_ok (by simp [h])]
  have h1 : (pre ++ x ++ rest).take pre.length = pre := by rw [List.append_assoc, List.take_left]
  have h2 : (pre ++ x ++ rest).drop (pre.length + d.length) = rest := by
    rw [← h, ← List.length_append, List.drop_left]
  rw [h1, h2]

theorem read_after (pre x rest : List Byte) : read (pre ++ x ++ rest) pre.length x.length = .ok x := by
  rw [read_ok (by simp), List.append_assoc, List.drop_left, List.take_left]

theorem Packet.write_mem (p : Packet) {m : List Byte} (hp : p.data.mem = some m) (off : Nat) (d : List Byte) :
    p.write off d = (Xchg.write m off d >>= fun m => .ok { p with data := { p.data with mem := some m } }) := by
  unfold Packet.write
  rw [hp]
  rfl

theorem Packet.read_mem (p : Packet) {m : List Byte} (hp : p.data.mem = some m) (off n : Nat) :
    p.read off n = Xchg.read m off n := by
  unfold Packet.read
  rw [hp]

/-- Growing a buffer that is already large enough. -/
theorem growTo_enough (e : Env) (b : Buf) (n : Nat) (h : (n + 1) % 2 ^ 64 ≤ b.cap) : b.growTo e n = .ok b := by
  unfold Buf.growTo
  simp only
  rw [if_neg (by omega)]

/-- A buffer fresh from `newPacket`, or grown once: contents, and the size the code believes in. -/
theorem newPacket_eq (e : Env) (v0 : Nat) (h : initialSize + 1 ≤ e.limit) :
    newPacket e v0 = .ok ⟨magic, v0, 0, 0, 0, 0, ⟨some ((List.range (initialSize + 1)).map e.fill), initialSize, initialSize + 1⟩⟩ := by
  have e1 : (initialSize + 1) % 2 ^ 64 = initialSize + 1 := by decide
  have e2 : (0 + initialSize) % 2 ^ 64 = initialSize := by decide
  unfold newPacket Buf.growTo Buf.empty
  simp only [e1, e2]
  rw [if_pos (by omega : 0 < initialSize + 1), alloc_ok h]
  rfl

/-- Growing the initial buffer. -/
theorem growTo_grow (e : Env) (m : List Byte) (size cap n : Nat) (hs : size ≤ m.length) (hn : size ≤ n + 1)
    (hc : cap < n + 1) (h64 : n + 1 < 2 ^ 64) (hl : n + 1 ≤ e.limit) :
    ∃ t : List Byte, t.length = n + 1 ∧ t.take size = m.take size ∧
      Buf.growTo e ⟨some m, size, cap⟩ n = .ok ⟨some t, (size + n) % 2 ^ 64, n + 1⟩ := by
  have e1 : (n + 1) % 2 ^ 64 = n + 1 := Nat.mod_eq_of_lt h64
  refine ⟨m.take size ++ ((List.range (n + 1)).map e.fill).drop size, ?_, ?_, ?_⟩
  · simp; omega
  · rw [List.take_append_of_le_length (by simp; omega), List.take_take, Nat.min_self]
  · unfold Buf.growTo
    simp only [e1]
    rw [if_pos hc, alloc_ok hl, ok_bind, read_ok (by omega)]
    simp only [ok_bind, List.drop_zero]
    rw [write_ok (by simp; omega)]
    have hlen : (m.take size).length = size := by simp; omega
    simp only [ok_bind, List.take_zero, List.nil_append, Nat.zero_add, hlen]
    rfl

theorem exists_split (l : List Byte) (n : Nat) (h : n ≤ l.length) : ∃ a b, l = a ++ b ∧ a.length = n :=
  ⟨l.take n, l.drop n, (List.take_append_drop _ _).symm, by simp; omega⟩

theorem write_at {m pre x rest d : List Byte} {off : Nat} (hm : m = pre ++ x ++ rest) (ho : pre.length = off)
    (h : x.length = d.length) : write m off d = .ok (pre ++ d ++ rest) := by
  subst hm; subst ho; exact write_after pre x rest d h

theorem read_at {m pre x rest : List Byte} {off n : Nat} (hm : m = pre ++ x ++ rest) (ho : pre.length = off)
    (h : x.length = n) : read m off n = .ok x := by
  subst hm; subst ho; subst h; exact read_after pre x rest

/-- The header bytes of the format. -/
def header (flag version number count type len : Nat) : List Byte :=
  be 4 flag ++ be 4 version ++ be 4 number ++ be 4 count ++ be 4 type ++ be 8 len

theorem header_length (a b c d f g : Nat) : (header a b c d f g).length = 28 := by
  simp [header, be_length]

/-- `EncodeHeader` overwrites the first 28 bytes with the header. -/
theorem encodeHeader_eq (p : Packet) (h rest : List Byte) (hm : p.data.mem = some (h ++ rest)) (hh : h.length = 28) :
    p.encodeHeader = .ok { p with data := { p.data with
      mem := some (header p.flag p.version p.number p.count p.type p.bodyLength ++ rest) } } := by
  obtain ⟨a, t1, rfl, ha⟩ := exists_split h 4 (by omega)
  rw [List.length_append] at hh
  obtain ⟨b, t2, rfl, hb⟩ := exists_split t1 4 (by omega)
  rw [List.length_append] at hh
  obtain ⟨c, t3, rfl, hc⟩ := exists_split t2 4 (by omega)
  rw [List.length_append] at hh
  obtain ⟨d, t4, rfl, hd⟩ := exists_split t3 4 (by omega)
  rw [List.length_append] at hh
  obtain ⟨f, g, rfl, hf⟩ := exists_split t4 4 (by omega)
  rw [List.length_append] at hh
  have hg : g.length = 8 := by omega
  unfold Packet.encodeHeader
  simp only [toLE_swap]
  rw [Packet.write_mem p hm]
  rw [write_at (off := 0) (pre := []) (x := a) (rest := b ++ c ++ d ++ f ++ g ++ rest) (by simp) rfl (by simp [ha, be_length])]
  simp only [ok_bind]
  rw [Packet.write_mem _ rfl]
  rw [write_at (pre := be 4 p.flag) (x := b) (rest := c ++ d ++ f ++ g ++ rest) (by simp) (by simp [be_length]) (by simp [hb, be_length])]
  simp only [ok_bind]
  rw [Packet.write_mem _ rfl]
  rw [write_at (pre := be 4 p.flag ++ be 4 p.version) (x := c) (rest := d ++ f ++ g ++ rest) (by simp) (by simp [be_length]) (by simp [hc, be_length])]
  simp only [ok_bind]
  rw [Packet.write_mem _ rfl]
  rw [write_at (pre := be 4 p.flag ++ be 4 p.version ++ be 4 p.number) (x := d) (rest := f ++ g ++ rest) (by simp) (by simp [be_length]) (by simp [hd, be_length])]
  simp only [ok_bind]
  rw [Packet.write_mem _ rfl]
  rw [write_at (pre := be 4 p.flag ++ be 4 p.version ++ be 4 p.number ++ be 4 p.count) (x := f) (rest := g ++ rest) (by simp) (by simp [be_length]) (by simp [hf, be_length])]
  simp only [ok_bind]
  rw [Packet.write_mem _ rfl]
  rw [write_at (pre := be 4 p.flag ++ be 4 p.version ++ be 4 p.number ++ be 4 p.count ++ be 4 p.type) (x := g) (rest := rest) (by simp) (by simp [be_length]) (by simp [hg, be_length])]
  simp only [ok_bind, header]

/-- `DecodeHeader` on a packet whose first 28 bytes are a header. -/
theorem decodeHeader_eq (e : Env) (p : Packet) (version number count type len : Nat) (rest : List Byte)
    (hm : p.data.mem = some (header 778682 version number count type len ++ rest))
    (hv : version < 2 ^ 32) (hn : number < 2 ^ 32) (hc : count < 2 ^ 32) (ht : type < 2 ^ 32) (hl : len < 2 ^ 64) :
    p.decodeHeader e = (p.data.growTo e len >>= fun d =>
      .ok (true, { flag := 778682, version := version, number := number, count := count, type := type, bodyLength := len, data := d })) := by
  have r1 : ∀ q : Packet, q.data = p.data → q.read 0 4 = .ok (be 4 778682) := fun q hq => by
    rw [Packet.read_mem q (hq ▸ hm)]
    exact read_at (pre := []) (rest := be 4 version ++ be 4 number ++ be 4 count ++ be 4 type ++ be 8 len ++ rest) (by simp [header]) rfl (be_length _ _)
  have r2 : ∀ q : Packet, q.data = p.data → q.read 4 4 = .ok (be 4 version) := fun q hq => by
    rw [Packet.read_mem q (hq ▸ hm)]
    exact read_at (pre := be 4 778682) (rest := be 4 number ++ be 4 count ++ be 4 type ++ be 8 len ++ rest) (by simp [header]) (be_length _ _) (be_length _ _)
  have r3 : ∀ q : Packet, q.data = p.data → q.read 8 4 = .ok (be 4 number) := fun q hq => by
    rw [Packet.read_mem q (hq ▸ hm)]
    exact read_at (pre := be 4 778682 ++ be 4 version) (rest := be 4 count ++ be 4 type ++ be 8 len ++ rest) (by simp [header]) (by simp [be_length]) (be_length _ _)
  have r4 : ∀ q : Packet, q.data = p.data → q.read 12 4 = .ok (be 4 count) := fun q hq => by
    rw [Packet.read_mem q (hq ▸ hm)]
    exact read_at (pre := be 4 778682 ++ be 4 version ++ be 4 number) (rest := be 4 type ++ be 8 len ++ rest) (by simp [header]) (by simp [be_length]) (be_length _ _)
  have r5 : ∀ q : Packet, q.data = p.data → q.read 16 4 = .ok (be 4 type) := fun q hq => by
    rw [Packet.read_mem q (hq ▸ hm)]
    exact read_at (pre := be 4 778682 ++ be 4 version ++ be 4 number ++ be 4 count) (rest := be 8 len ++ rest) (by simp [header]) (by simp [be_length]) (be_length _ _)
  have r6 : ∀ q : Packet, q.data = p.data → q.read 20 8 = .ok (be 8 len) := fun q hq => by
    rw [Packet.read_mem q (hq ▸ hm)]
    exact read_at (pre := be 4 778682 ++ be 4 version ++ be 4 number ++ be 4 count ++ be 4 type) (rest := rest) (by simp [header]) (by simp [be_length]) (be_length _ _)
  have e4 : (256 : Nat) ^ 4 = 2 ^ 32 := by decide
  have e8 : (256 : Nat) ^ 8 = 2 ^ 64 := by decide
  unfold Packet.decodeHeader
  rw [r1 p rfl, ok_bind, swap_be 4 778682 (by decide)]
  simp only
  rw [if_neg (by decide)]
  rw [r2 { p with flag := 778682 } rfl, ok_bind, r3 { p with flag := 778682 } rfl, ok_bind, r4 { p with flag := 778682 } rfl, ok_bind, r5 { p with flag := 778682 } rfl, ok_bind, r6 { p with flag := 778682 } rfl, ok_bind]
  simp only [swap_be 4 version (e4 ▸ hv), swap_be 4 number (e4 ▸ hn), swap_be 4 count (e4 ▸ hc), swap_be 4 type (e4 ▸ ht),
    swap_be 8 len (e8 ▸ hl)]
  rfl

/-! ### C20: sending -/

/-- Whatever the header fields and the body, what goes out on the wire is the packet in the format of the
specification, provided the memory suffices. -/
theorem C20_send (e : Env) (v0 : Nat) (p : Packet) (body : List Byte)
    (hnew : newPacket e v0 = .ok p) (version number count type : Nat)
    (hl : initialSize + 1 ≤ e.limit) (hb : body.length + 29 ≤ e.limit) (hlim : e.limit < 2 ^ 64) :
    send e { p with version := version, number := number, count := count, type := type } body =
      .ok (wireFormat version number count type body) := by
  rw [newPacket_eq e v0 hl] at hnew
  have hp := (Except.ok.inj hnew).symm
  subst hp
  have hgrow : ∃ t size cap, Buf.growTo e ⟨some ((List.range (initialSize + 1)).map e.fill), initialSize, initialSize + 1⟩
      ((headerLength + body.length) % 2 ^ 64) = .ok ⟨some t, size, cap⟩ ∧ headerLength + body.length ≤ t.length := by
    have e1 : (headerLength + body.length) % 2 ^ 64 = headerLength + body.length := by
      apply Nat.mod_eq_of_lt; unfold headerLength; omega
    rw [e1]
    by_cases hbig : initialSize + 1 < headerLength + body.length + 1
    · obtain ⟨t, ht1, -, ht3⟩ := growTo_grow e ((List.range (initialSize + 1)).map e.fill) initialSize (initialSize + 1)
        (headerLength + body.length) (by simp) (by omega) hbig (by unfold headerLength; omega) (by unfold headerLength; omega)
      exact ⟨t, _, _, ht3, by omega⟩
    · refine ⟨_, _, _, growTo_enough _ _ _ ?_, ?_⟩
      · rw [Nat.mod_eq_of_lt (by unfold headerLength; omega)]
        simp only
        omega
      · simp; omega
  obtain ⟨t, size, cap, hg, ht⟩ := hgrow
  have h28 : headerLength = 28 := rfl
  rw [h28] at ht
  unfold send Packet.setBody
  simp only
  rw [hg]
  simp only [ok_bind]
  obtain ⟨h, t1, rfl, hh⟩ := exists_split t 28 (by omega)
  rw [List.length_append] at ht
  obtain ⟨x, rest, rfl, hx⟩ := exists_split t1 body.length (by omega)
  rw [Packet.write_mem _ rfl, write_at (off := headerLength) (pre := h) (x := x) (rest := rest) (by simp) hh hx]
  simp only [ok_bind]
  rw [encodeHeader_eq _ h (body ++ rest) (by simp) hh]
  simp only [ok_bind]
  rw [Packet.read_mem _ rfl]
  have hlen : (28 + body.length) % 2 ^ 64 = 28 + body.length := Nat.mod_eq_of_lt (by omega)
  unfold Packet.length
  simp only [h28, hlen]
  rw [read_at (off := 0) (pre := []) (x := wireFormat version number count type body) (rest := rest) (by simp [wireFormat, header, magic]) rfl
    (by simp [wireFormat, be_length]; omega)]

example : ∃ e : Env, initialSize + 1 ≤ e.limit ∧ ([1, 2, 3] : List Byte).length + 29 ≤ e.limit ∧ e.limit < 2 ^ 64 :=
  ⟨⟨fun _ => 0xCD, 2 ^ 40⟩, by decide, by decide, by decide⟩

/-! ### C20: receiving -/

/-- The largest body for which the receiving buffer is large enough: 30 MB + 1 - 28. -/
def maxBody : Nat := 31457253

theorem header_split (h : List Byte) (hh : h.length = 28) :
    ∃ flag version number count type len, h = header flag version number count type len ∧ flag < 2 ^ 32 ∧
      version < 2 ^ 32 ∧ number < 2 ^ 32 ∧ count < 2 ^ 32 ∧ type < 2 ^ 32 ∧ len < 2 ^ 64 := by
  have key : ∀ (n : Nat) (x : List Byte), x.length = n → ∃ v, x = be n v ∧ v < 256 ^ n := by
    intro n x hx
    refine ⟨ofLE x.reverse, ?_, ?_⟩
    · have := toLE_ofLE x.reverse
      rw [List.length_reverse, hx] at this
      rw [be_eq, this, List.reverse_reverse]
    · have hlt : ∀ l : List Byte, ofLE l < 256 ^ l.length := by
        intro l
        induction l with
        | nil => simp [ofLE]
        | cons b l ih =>
          have hb : b.toNat < 256 := b.isLt
          rw [ofLE, List.length_cons, Nat.pow_succ]
          omega
      have := hlt x.reverse
      rwa [List.length_reverse, hx] at this
  obtain ⟨a, t1, rfl, ha⟩ := exists_split h 4 (by omega)
  rw [List.length_append] at hh
  obtain ⟨b, t2, rfl, hb⟩ := exists_split t1 4 (by omega)
  rw [List.length_append] at hh
  obtain ⟨c, t3, rfl, hc⟩ := exists_split t2 4 (by omega)
  rw [List.length_append] at hh
  obtain ⟨d, t4, rfl, hd⟩ := exists_split t3 4 (by omega)
  rw [List.length_append] at hh
  obtain ⟨f, g, rfl, hf⟩ := exists_split t4 4 (by omega)
  rw [List.length_append] at hh
  have e4 : (256 : Nat) ^ 4 = 2 ^ 32 := by decide
  have e8 : (256 : Nat) ^ 8 = 2 ^ 64 := by decide
  obtain ⟨va, rfl, la⟩ := key 4 a ha
  obtain ⟨vb, rfl, lb⟩ := key 4 b hb
  obtain ⟨vc, rfl, lc⟩ := key 4 c hc
  obtain ⟨vd, rfl, ld⟩ := key 4 d hd
  obtain ⟨vf, rfl, lf⟩ := key 4 f hf
  obtain ⟨vg, rfl, lg⟩ := key 8 g (by omega)
  rw [e4] at la lb lc ld lf
  rw [e8] at lg
  exact ⟨va, vb, vc, vd, vf, vg, by simp [header], la, lb, lc, ld, lf, lg⟩

/-- The state of the receiver after the 28 header bytes have arrived, whatever they are. -/
theorem receive_eq (e : Env) (v0 flag version number count type len : Nat) (rest : List Byte)
    (hl : initialSize + 1 ≤ e.limit)
    (hf : flag < 2 ^ 32) (hv : version < 2 ^ 32) (hn : number < 2 ^ 32) (hc : count < 2 ^ 32) (ht : type < 2 ^ 32) (hlen : len < 2 ^ 64) :
    ∃ t : List Byte, t.length = maxBody ∧
    receive e v0 (header flag version number count type len ++ rest) =
      if flag ≠ 778682 then .ok none
      else Buf.growTo e ⟨some (header 778682 version number count type len ++ t), initialSize, initialSize + 1⟩ len >>= fun d =>
        (Packet.write ⟨778682, version, number, count, type, len, d⟩ headerLength (rest.take len)) >>= fun p =>
          if rest.length < p.bodyLength then .ok none else .ok (some p) := by
  have hx : (headerLength ≤ ((List.range (initialSize + 1)).map e.fill).length) := by
    simp [headerLength, initialSize]
  obtain ⟨x, t, hxt, hxl⟩ := exists_split _ headerLength hx
  have htl : t.length = maxBody := by
    have := congrArg List.length hxt
    simp only [List.length_map, List.length_range, List.length_append] at this
    unfold initialSize at this
    unfold headerLength at hxl
    unfold maxBody
    omega
  refine ⟨t, htl, ?_⟩
  unfold receive
  rw [newPacket_eq e v0 hl, ok_bind, if_neg (by simp [header_length, headerLength])]
  have h1 : (header flag version number count type len ++ rest).take headerLength = header flag version number count type len := by
    rw [show headerLength = (header flag version number count type len).length from (header_length _ _ _ _ _ _).symm, List.take_left]
  have h2 : (header flag version number count type len ++ rest).drop headerLength = rest := by
    rw [show headerLength = (header flag version number count type len).length from (header_length _ _ _ _ _ _).symm, List.drop_left]
  rw [h1, h2, hxt, Packet.write_mem _ rfl,
    write_at (off := 0) (pre := []) (x := x) (rest := t) (by simp) rfl (by rw [hxl, header_length]; rfl)]
  simp only [ok_bind, List.nil_append]
  by_cases hm : flag = 778682
  · subst hm
    rw [if_neg (by simp)]
    rw [decodeHeader_eq e _ version number count type len t rfl hv hn hc ht hlen]
    cases Buf.growTo e ⟨some (header 778682 version number count type len ++ t), initialSize, initialSize + 1⟩ len with
    | error _ => rfl
    | ok d => rfl
  · rw [if_pos hm]
    unfold Packet.decodeHeader
    rw [Packet.read_mem _ rfl, read_at (off := 0) (n := 4) (pre := []) (x := be 4 flag)
      (rest := be 4 version ++ be 4 number ++ be 4 count ++ be 4 type ++ be 8 len ++ t) (by simp [header]) rfl (be_length _ _)]
    simp only [ok_bind]
    rw [swap_be 4 flag (by rw [show (256 : Nat) ^ 4 = 2 ^ 32 by decide]; exact hf)]
    rw [if_pos (show flag ≠ magic from hm)]
    rfl

/-- Every packet with a body of up to 31457253 bytes arrives with its version, number, count, type, body length and
body unchanged. -/
theorem C20_receive_partial (e : Env) (v0 version number count type : Nat) (body : List Byte)
    (hl : initialSize + 1 ≤ e.limit)
    (hv : version < 2 ^ 32) (hn : number < 2 ^ 32) (hc : count < 2 ^ 32) (ht : type < 2 ^ 32) (hb : body.length ≤ maxBody) :
    ∃ p, receive e v0 (wireFormat version number count type body) = .ok (some p) ∧ p.version = version ∧
      p.number = number ∧ p.count = count ∧ p.type = type ∧ p.bodyLength = body.length ∧ p.body = .ok body := by
  have hw : wireFormat version number count type body = header 778682 version number count type body.length ++ body := by
    simp [wireFormat, header]
  have hb64 : body.length < 2 ^ 64 := by unfold maxBody at hb; omega
  obtain ⟨t, htl, hr⟩ := receive_eq e v0 778682 version number count type body.length body hl (by decide) hv hn hc ht hb64
  rw [hw, hr, if_neg (by simp)]
  rw [growTo_enough _ _ _ (by
    unfold maxBody at hb; unfold initialSize; rw [Nat.mod_eq_of_lt (by omega)]; simp only; omega), ok_bind]
  obtain ⟨x, u, rfl, hx⟩ := exists_split t body.length (by omega)
  rw [Packet.write_mem _ rfl, List.take_length,
    write_at (off := headerLength) (pre := header 778682 version number count type body.length) (x := x) (rest := u) (by simp)
      (header_length _ _ _ _ _ _) hx]
  simp only [ok_bind, Nat.lt_irrefl, if_false]
  refine ⟨_, rfl, rfl, rfl, rfl, rfl, rfl, ?_⟩
  unfold Packet.body
  rw [Packet.read_mem _ rfl]
  exact read_at (rest := u) rfl (header_length _ _ _ _ _ _) rfl

/-- A packet whose magic number is wrong is refused, whatever follows. -/
theorem C20_bad_magic (e : Env) (v0 flag version number count type len : Nat) (rest : List Byte)
    (hl : initialSize + 1 ≤ e.limit) (hf : flag < 2 ^ 32) (hv : version < 2 ^ 32) (hn : number < 2 ^ 32) (hc : count < 2 ^ 32)
    (ht : type < 2 ^ 32) (hlen : len < 2 ^ 64) (hm : flag ≠ 778682) :
    receive e v0 (be 4 flag ++ be 4 version ++ be 4 number ++ be 4 count ++ be 4 type ++ be 8 len ++ rest) = .ok none := by
  obtain ⟨t, -, hr⟩ := receive_eq e v0 flag version number count type len rest hl hf hv hn hc ht hlen
  rw [if_pos hm] at hr
  exact hr

/-- Sending and receiving together. -/
theorem C20_roundtrip_partial (e : Env) (v0 v1 : Nat) (p : Packet) (version number count type : Nat) (body : List Byte)
    (hl : initialSize + 1 ≤ e.limit) (hlim : e.limit < 2 ^ 64) (hnew : newPacket e v0 = .ok p)
    (hv : version < 2 ^ 32) (hn : number < 2 ^ 32) (hc : count < 2 ^ 32) (ht : type < 2 ^ 32) (hb : body.length ≤ maxBody - 1) :
    ∃ wire q, send e { p with version := version, number := number, count := count, type := type } body = .ok wire ∧
      receive e v1 wire = .ok (some q) ∧ q.version = version ∧ q.number = number ∧ q.count = count ∧ q.type = type ∧
      q.bodyLength = body.length ∧ q.body = .ok body := by
  have hb2 : body.length + 29 ≤ e.limit := by unfold maxBody at hb; unfold initialSize at hl; omega
  obtain ⟨q, hq⟩ := C20_receive_partial e v1 version number count type body hl hv hn hc ht (by omega)
  exact ⟨_, q, C20_send e v0 p body hnew version number count type hl hb2 hlim, hq⟩

example : ∃ e : Env, ∃ p, initialSize + 1 ≤ e.limit ∧ e.limit < 2 ^ 64 ∧ newPacket e 5 = .ok p ∧
    ("{\"Type\":\"MVR_JOIN\"}".toList.map (fun c => BitVec.ofNat 8 c.toNat)).length ≤ maxBody - 1 :=
  ⟨⟨fun _ => 0xCD, 2 ^ 40⟩, _, by decide, by decide, newPacket_eq _ 5 (by decide), by decide⟩

/-! ### C21: receiving -/

/-- **Violation.** Every packet with a body of more than 31457253 bytes – for example a valid MVR file of 31 MB –
is written beyond the end of the receiving buffer: `DecodeHeader` makes room for the body but not for the header in
front of it. -/
theorem C21_receive_overflow_violated (e : Env) (v0 version number count type : Nat) (body : List Byte)
    (hl : initialSize + 1 ≤ e.limit) (hlim : e.limit < 2 ^ 64)
    (hv : version < 2 ^ 32) (hn : number < 2 ^ 32) (hc : count < 2 ^ 32) (ht : type < 2 ^ 32)
    (hb : maxBody < body.length) (hmem : body.length + 1 ≤ e.limit) :
    receive e v0 (wireFormat version number count type body) = .error .outOfBounds := by
  have hw : wireFormat version number count type body = header 778682 version number count type body.length ++ body := by
    simp [wireFormat, header]
  obtain ⟨t, htl, hr⟩ := receive_eq e v0 778682 version number count type body.length body hl (by decide) hv hn hc ht (by omega)
  rw [hw, hr, if_neg (by simp)]
  by_cases hbig : initialSize + 1 < body.length + 1
  · obtain ⟨u, hu1, -, hu3⟩ := growTo_grow e (header 778682 version number count type body.length ++ t) initialSize (initialSize + 1)
      body.length (by rw [List.length_append, header_length, htl]; decide) (by omega) hbig (by omega) hmem
    rw [hu3, ok_bind, Packet.write_mem _ rfl, write_fail (by rw [hu1, List.take_length]; unfold headerLength; omega)]
    rfl
  · rw [growTo_enough _ _ _ (by rw [Nat.mod_eq_of_lt (by omega)]; simp only; omega), ok_bind, Packet.write_mem _ rfl,
      write_fail (by rw [List.length_append, header_length, htl, List.take_length]; unfold headerLength; omega)]
    rfl

example : ∃ (e : Env) (body : List Byte), initialSize + 1 ≤ e.limit ∧ e.limit < 2 ^ 64 ∧ maxBody < body.length ∧ body.length + 1 ≤ e.limit :=
  ⟨⟨fun _ => 0, 2 ^ 40⟩, List.replicate 32505856 7, by decide, by decide, by rw [List.length_replicate]; decide, by rw [List.length_replicate]; decide⟩

/-- **Violation.** A peer that announces 2^64 - 1 bytes makes the size computation wrap around, so that no memory is
added and everything after the first 31457253 bytes it sends is written beyond the buffer. -/
theorem C21_receive_wrap_violated (e : Env) (v0 version number count type : Nat) (sent : List Byte)
    (hl : initialSize + 1 ≤ e.limit)
    (hv : version < 2 ^ 32) (hn : number < 2 ^ 32) (hc : count < 2 ^ 32) (ht : type < 2 ^ 32)
    (hs : maxBody < sent.length) (hs2 : sent.length < 2 ^ 64) :
    receive e v0 (be 4 778682 ++ be 4 version ++ be 4 number ++ be 4 count ++ be 4 type ++ be 8 (2 ^ 64 - 1) ++ sent) =
      .error .outOfBounds := by
  obtain ⟨t, htl, hr⟩ := receive_eq e v0 778682 version number count type (2 ^ 64 - 1) sent hl (by decide) hv hn hc ht (by decide)
  have hw : be 4 778682 ++ be 4 version ++ be 4 number ++ be 4 count ++ be 4 type ++ be 8 (2 ^ 64 - 1) ++ sent =
    header 778682 version number count type (2 ^ 64 - 1) ++ sent := rfl
  rw [hw, hr, if_neg (by simp), growTo_enough _ _ _ (by
    rw [show (2 ^ 64 - 1 + 1) % 2 ^ 64 = 0 by decide]; exact Nat.zero_le _), ok_bind, Packet.write_mem _ rfl]
  rw [List.take_of_length_le (by omega), write_fail (by rw [List.length_append, header_length, htl]; unfold headerLength; omega)]
  rfl

/-- The part that holds: whatever arrives, as long as the announced body length is at most 31457253 (or fewer than 28
bytes arrive), receiving stays inside the buffer. -/
theorem C21_receive_partial (e : Env) (v0 : Nat) (wire : List Byte) (hl : initialSize + 1 ≤ e.limit)
    (hlen : ∀ pre len rest, wire = pre ++ be 8 len ++ rest → pre.length = 20 → len < 2 ^ 64 → len ≤ maxBody) :
    ∃ r, receive e v0 wire = .ok r := by
  by_cases hshort : wire.length < headerLength
  · refine ⟨none, ?_⟩
    unfold receive
    rw [newPacket_eq e v0 hl, ok_bind, if_pos hshort]
    rfl
  · obtain ⟨h, rest, rfl, hh⟩ := exists_split wire 28 (by unfold headerLength at hshort; omega)
    obtain ⟨flag, version, number, count, type, len, rfl, hf, hv, hn, hc, ht, hlen64⟩ := header_split h hh
    obtain ⟨t, htl, hr⟩ := receive_eq e v0 flag version number count type len rest hl hf hv hn hc ht hlen64
    have hmax := hlen (be 4 flag ++ be 4 version ++ be 4 number ++ be 4 count ++ be 4 type) len rest (by simp [header])
      (by simp [be_length]) hlen64
    rw [hr]
    by_cases hm : flag = 778682
    · subst hm
      rw [if_neg (by simp), growTo_enough _ _ _ (by
        unfold maxBody at hmax; unfold initialSize; rw [Nat.mod_eq_of_lt (by omega)]; simp only; omega), ok_bind]
      rw [Packet.write_mem _ rfl, write_ok (by
        rw [List.length_append, header_length, htl, List.length_take]; unfold headerLength; omega)]
      simp only [ok_bind]
      split
      · exact ⟨_, rfl⟩
      · exact ⟨_, rfl⟩
    · exact ⟨none, by rw [if_pos hm]⟩

/-! ### C21: buffer operations -/

/-- What a user of the buffer does. -/
inductive Op
  | from (d : List Byte)
  | append (d : List Byte)
  | dispose

/-- The buffer as the user thinks of it: the bytes stored.  (`FromBuffer` with nothing keeps the old contents.) -/
def Op.spec : List Byte → Op → List Byte
  | s, .from d => if d = [] then s else d
  | s, .append d => s ++ d
  | _, .dispose => []

/-- The operation on the buffer. -/
def Op.run (e : Env) (b : Buf) : Op → Except Fault Buf
  | .from d => b.fromBuffer e d
  | .append d => b.append e d
  | .dispose => .ok b.dispose

/-- A buffer holds exactly these bytes. -/
def Holds (e : Env) (b : Buf) (s : List Byte) : Prop :=
  b.size = s.length ∧ b.size ≤ b.cap ∧ b.cap ≤ e.limit ∧
  ((b.mem = none ∧ b.cap = 0) ∨ ∃ m, b.mem = some m ∧ m.length = b.cap ∧ m.take b.size = s)

theorem run_holds (e : Env) (hlim : e.limit < 2 ^ 62) (b : Buf) (s : List Byte) (op : Op) (h : Holds e b s)
    (hop : ∀ d, op = .append d → d.length < 2 ^ 62) :
    (op.run e b = .error .badAlloc) ∨ ∃ b', op.run e b = .ok b' ∧ Holds e b' (Op.spec s op) := by
  obtain ⟨h1, h2, h3, h4⟩ := h
  cases op with
  | «from» d =>
    simp only [Op.run, Buf.fromBuffer, Op.spec]
    by_cases hd : d = []
    · right
      subst hd
      exact ⟨b, rfl, h1, h2, h3, h4⟩
    · rw [if_neg (by simpa using hd), if_neg hd]
      by_cases ha : d.length ≤ e.limit
      · right
        rw [alloc_ok ha, ok_bind, write_ok (by simp)]
        refine ⟨_, rfl, rfl, Nat.le_refl _, ha, Or.inr ⟨_, rfl, ?_, ?_⟩⟩
        · simp
        · simp
      · left
        unfold alloc
        rw [if_pos (by omega)]
        rfl
  | append d =>
    simp only [Op.run, Buf.append, Op.spec]
    have hd63 := hop d rfl
    by_cases hd : d = []
    · right
      subst hd
      rw [List.append_nil]
      exact ⟨b, rfl, h1, h2, h3, h4⟩
    · have hd0 : 0 < d.length := List.length_pos_iff.2 hd
      rw [if_neg (by simpa using hd)]
      have e1 : (b.size + d.length) % 2 ^ 64 = b.size + d.length := Nat.mod_eq_of_lt (by omega)
      simp only [e1]
      by_cases hc : b.cap ≥ b.size + d.length
      · right
        rw [if_pos hc]
        rcases h4 with ⟨-, h0⟩ | ⟨m, hm, hml, hmt⟩
        · omega
        · rw [hm]
          simp only
          rw [write_ok (by omega)]
          refine ⟨_, rfl, by simp [h1], hc, h3, Or.inr ⟨_, rfl, ?_, ?_⟩⟩
          · rw [written_length (by omega)]; exact hml
          · simp only
            rw [hmt, List.take_append_of_le_length (by simp [h1]), List.take_of_length_le (by simp [h1])]
      · rw [if_neg hc]
        by_cases ha : (b.size + d.length + extra) % 2 ^ 64 ≤ e.limit
        · right
          have e2 : (b.size + d.length + extra) % 2 ^ 64 = b.size + d.length + extra := Nat.mod_eq_of_lt (by unfold extra; omega)
          rw [e2] at ha ⊢
          rw [alloc_ok ha, ok_bind]
          rcases h4 with ⟨hm, h0⟩ | ⟨m, hm, hml, hmt⟩
          · rw [hm]
            have hs0 : b.size = 0 := by omega
            have hs : s = [] := List.eq_nil_of_length_eq_zero (by omega)
            simp only [pure, Except.pure, ok_bind]
            rw [write_ok (by simp)]
            refine ⟨_, rfl, by simp [h1], by simp only; omega, ha, Or.inr ⟨_, rfl, ?_, ?_⟩⟩
            · rw [written_length (by simp)]; simp
            · simp [hs0, hs]
          · rw [hm]
            simp only
            rw [read_ok (by omega)]
            simp only [ok_bind, List.drop_zero]
            rw [write_ok (by simp; omega)]
            simp only [ok_bind, List.take_zero, List.nil_append, hmt]
            rw [write_ok (by simp; omega)]
            refine ⟨_, rfl, by simp [h1], by simp only; omega, ha, Or.inr ⟨_, rfl, ?_, ?_⟩⟩
            · rw [written_length (by simp; omega)]; simp; omega
            · simp only
              rw [h1, List.take_left, List.take_append_of_le_length (by simp), List.take_of_length_le (by simp)]
        · left
          unfold alloc
          rw [if_pos (by omega)]
          rfl
  | dispose =>
    right
    exact ⟨_, rfl, rfl, Nat.le_refl _, Nat.zero_le _, Or.inl ⟨rfl, rfl⟩⟩

/-- Run operations one after the other. -/
def runAll (e : Env) : Buf → List Op → Except Fault Buf
  | b, [] => .ok b
  | b, op :: ops => op.run e b >>= fun b => runAll e b ops

/-- The part that holds: whatever sequence of `FromBuffer`, `Append` and `DisposeBuffer` is applied to a new buffer, no
memory outside the allocation is touched, and afterwards the buffer holds exactly the bytes stored. -/
theorem C21_append_partial (e : Env) (hlim : e.limit < 2 ^ 62) (ops : List Op)
    (hop : ∀ d, Op.append d ∈ ops → d.length < 2 ^ 62) :
    (runAll e Buf.empty ops = .error .badAlloc) ∨
    ∃ b, runAll e Buf.empty ops = .ok b ∧ b.size = (ops.foldl Op.spec []).length ∧
      (b.size = 0 ∨ ∃ m, b.mem = some m ∧ m.take b.size = ops.foldl Op.spec []) := by
  have key : ∀ (ops : List Op) (b : Buf) (s : List Byte), Holds e b s → (∀ d, Op.append d ∈ ops → d.length < 2 ^ 62) →
      (runAll e b ops = .error .badAlloc) ∨ ∃ b', runAll e b ops = .ok b' ∧ Holds e b' (ops.foldl Op.spec s) := by
    intro ops
    induction ops with
    | nil => intro b s h _; exact Or.inr ⟨b, rfl, h⟩
    | cons op ops ih =>
      intro b s h hop
      rcases run_holds e hlim b s op h (fun d hd => hop d (by simp [hd])) with hr | ⟨b', hr, hh⟩
      · left
        rw [runAll, hr]; rfl
      · rw [runAll, hr, ok_bind]
        exact ih b' _ hh (fun d hd => hop d (by simp [hd]))
  rcases key ops Buf.empty [] ⟨rfl, Nat.le_refl _, Nat.zero_le _, Or.inl ⟨rfl, rfl⟩⟩ hop with h | ⟨b, hb, h1, h2, h3, h4⟩
  · exact Or.inl h
  · refine Or.inr ⟨b, hb, h1, ?_⟩
    rcases h4 with ⟨-, h0⟩ | ⟨m, hm, -, hmt⟩
    · left; omega
    · exact Or.inr ⟨m, hm, hmt⟩

example : (runAll ⟨fun _ => 0xCD, 100000⟩ Buf.empty [.append [1, 2], .from [3], .append [4, 5]]).toOption.map (fun b => b.size) = some 3 := by
  decide +kernel

/-- **Violation.** `GrowTo` counts the size requested as bytes stored: growing twice and then appending anything reads
beyond the buffer, for all sizes. -/
theorem C21_growTo_violated (e : Env) (a b : Nat) (d : List Byte) (ha : 1 < a) (hab : a < b) (hd : d ≠ [])
    (hlim : e.limit < 2 ^ 63) (hmem : a + b + d.length + extra ≤ e.limit) :
    (Buf.empty.growTo e a >>= fun x => x.growTo e b >>= fun y => y.append e d) = .error .outOfBounds := by
  have hd0 : 0 < d.length := List.length_pos_iff.2 hd
  have h1 : Buf.empty.growTo e a = .ok ⟨some ((List.range (a + 1)).map e.fill), a, a + 1⟩ := by
    unfold Buf.growTo Buf.empty
    have e1 : (a + 1) % 2 ^ 64 = a + 1 := Nat.mod_eq_of_lt (by omega)
    have e2 : (0 + a) % 2 ^ 64 = a := by rw [Nat.zero_add]; exact Nat.mod_eq_of_lt (by omega)
    simp only [e1, e2]
    rw [if_pos (by omega), alloc_ok (by omega)]
    rfl
  obtain ⟨t, ht1, -, ht3⟩ := growTo_grow e ((List.range (a + 1)).map e.fill) a (a + 1) b (by simp) (by omega) (by omega) (by omega) (by omega)
  rw [h1, ok_bind, ht3, ok_bind]
  unfold Buf.append
  have e3 : (a + b) % 2 ^ 64 = a + b := Nat.mod_eq_of_lt (by omega)
  have e4 : (a + b + d.length) % 2 ^ 64 = a + b + d.length := Nat.mod_eq_of_lt (by omega)
  have e5 : (a + b + d.length + extra) % 2 ^ 64 = a + b + d.length + extra := Nat.mod_eq_of_lt (by omega)
  rw [if_neg (by simpa using hd)]
  simp only [e3, e4, e5]
  rw [if_neg (by omega), alloc_ok hmem, ok_bind]
  have : read t 0 (a + b) = .error .outOfBounds := by unfold read; rw [if_pos (by omega)]
  rw [this]
  rfl

example : (Buf.empty.growTo ⟨fun _ => 0, 100000⟩ 10 >>= fun x => x.growTo ⟨fun _ => 0, 100000⟩ 20 >>= fun y =>
    y.append ⟨fun _ => 0, 100000⟩ [1]) = .error .outOfBounds :=
  C21_growTo_violated _ 10 20 [1] (by decide) (by decide) (by decide) (by decide) (by decide)

end Verif.Xchg
