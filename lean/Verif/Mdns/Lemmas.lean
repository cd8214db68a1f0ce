import Verif.Mdns.Spec

/-!
# Lemmas: reading names
-/

namespace Verif.Mdns

@[simp] theorem bind_ok {α β : Type} (a : α) (f : α → Out β) : (Out.ok a).bind f = f a := rfl
@[simp] theorem bind_outside {α β : Type} (f : α → Out β) : (Out.outside : Out α).bind f = .outside := rfl
@[simp] theorem bind_running {α β : Type} (f : α → Out β) : (Out.running : Out α).bind f = .running := rfl

theorem Has.le {p part : Bytes} {off : Nat} (h : Has p off part) : off + part.length ≤ p.length := by
  obtain ⟨a, b, rfl, rfl⟩ := h
  simp

theorem Has.left {p a b : Bytes} {off : Nat} (h : Has p off (a ++ b)) : Has p off a := by
  obtain ⟨x, y, rfl, rfl⟩ := h
  exact ⟨x, b ++ y, by simp, rfl⟩

theorem Has.right {p a b : Bytes} {off : Nat} (h : Has p off (a ++ b)) : Has p (off + a.length) b := by
  obtain ⟨x, y, rfl, rfl⟩ := h
  exact ⟨x ++ a, y, by simp, by simp⟩

theorem Has.app {p part : Bytes} {off : Nat} (h : Has p off part) (s : Bytes) : Has (p ++ s) off part := by
  obtain ⟨x, y, rfl, rfl⟩ := h
  exact ⟨x, y ++ s, by simp, rfl⟩

theorem Has.get {m part : Bytes} {off : Nat} (h : Has m off part) (i : Nat) (hi : i < part.length) :
    byteAt m (off + i) = .ok (part[i]) := by
  obtain ⟨x, y, rfl, rfl⟩ := h
  rw [byteAt, List.append_assoc, List.getElem?_append_right (by omega), Nat.add_sub_cancel_left, List.getElem?_append_left hi,
    List.getElem?_eq_getElem hi]

theorem Has.head {m part : Bytes} {b : Byte} {off : Nat} (h : Has m off (b :: part)) : byteAt m off = .ok b := by
  have := h.get 0 (by simp)
  rwa [Nat.add_zero] at this

theorem Has.copy {m part : Bytes} {off n : Nat} (h : Has m off part) (hn : n = part.length) : copy m off n = .ok part := by
  have hl := h.le
  obtain ⟨x, y, rfl, rfl⟩ := h
  rw [Mdns.copy, if_pos (by omega), hn]
  simp

theorem Has.u16 {m : Bytes} {off n : Nat} (h : Has m off (net16 n)) (hn : n < 65536) : u16 m off = .ok n := by
  have h0 := h.get 0 (by simp [net16])
  have h1 := h.get 1 (by simp [net16])
  rw [Nat.add_zero] at h0
  rw [Mdns.u16, h0, bind_ok, h1, bind_ok]
  simp only [net16, List.getElem_cons_zero, List.getElem_cons_succ, BitVec.toNat_ofNat]
  congr 1
  omega

theorem net32_u32 {m : Bytes} {off n : Nat} (h : Has m off (net32 n)) (hn : n < 4294967296) : u32 m off = .ok n := by
  have h0 := (Has.left h)
  have h1 := (Has.right h)
  have e : net16 n = net16 (n % 65536) := by
    simp only [net16]
    congr 1
    · apply BitVec.eq_of_toNat_eq
      simp only [BitVec.toNat_ofNat]
      omega
    · congr 1
      apply BitVec.eq_of_toNat_eq
      simp only [BitVec.toNat_ofNat]
      omega
  rw [e] at h1
  rw [Mdns.u32, h0.u16 (by omega), bind_ok, show off + 2 = off + (net16 (n / 65536)).length from rfl, h1.u16 (by omega), bind_ok]
  congr 1
  omega

/-! ### One part of a name -/

theorem isRef_len (n : Nat) (h : n < 64) : isRef (BitVec.ofNat 8 n) = false := by
  have : ∀ n : Fin 64, isRef (BitVec.ofNat 8 n.val) = false := by decide
  exact this ⟨n, h⟩

theorem isRef_high (n : Nat) (h : n < 16384) : isRef (BitVec.ofNat 8 ((0xC000 + n) / 256)) = true := by
  have e : (0xC000 + n) / 256 = 192 + n / 256 := by omega
  have : ∀ k : Fin 64, isRef (BitVec.ofNat 8 (192 + k.val)) = true := by decide
  rw [e]
  exact this ⟨n / 256, by omega⟩

theorem len_ne_zero (n : Nat) (h : n < 64) (h0 : n ≠ 0) : (BitVec.ofNat 8 n) ≠ 0 := by
  intro he
  have := congrArg BitVec.toNat he
  simp at this
  omega

theorem high_ne_zero (n : Nat) (h : n < 16384) : (BitVec.ofNat 8 ((0xC000 + n) / 256)) ≠ 0 := by
  intro he
  have := congrArg BitVec.toNat he
  simp at this
  omega

theorem nextSub_stop {p s : Bytes} {off : Nat} (h : Has p off [0]) : nextSub (p ++ s) p.length off = .ok (some ⟨off, 0, false⟩) := by
  rw [nextSub, (h.app s).head, bind_ok, if_pos rfl]

theorem nextSub_label {p s l : Bytes} {off : Nat} (hl : l ≠ []) (h64 : l.length < 64) (h : Has p off (BitVec.ofNat 8 l.length :: l)) :
    nextSub (p ++ s) p.length off = .ok (some ⟨off + 1, l.length, false⟩) := by
  have hle := h.le
  have h0 : l.length ≠ 0 := by simpa using hl
  have e : (BitVec.ofNat 8 l.length).toNat = l.length := by simp; omega
  rw [List.length_cons] at hle
  rw [nextSub, (h.app s).head, bind_ok, if_neg (len_ne_zero _ h64 h0), if_neg (by simp [isRef_len _ h64]), e, if_neg (by omega)]

theorem nextSub_ref {p s l : Bytes} {off to : Nat} (hto : to < 16384) (hr : Has p off (net16 (0xC000 + to)))
    (h64 : l.length < 64) (h : Has p to (BitVec.ofNat 8 l.length :: l)) :
    nextSub (p ++ s) p.length off = .ok (some ⟨to + 1, l.length, true⟩) := by
  have hle := h.le
  have hre := hr.le
  have e : (BitVec.ofNat 8 l.length).toNat = l.length := by simp; omega
  rw [List.length_cons] at hle
  simp only [net16, List.length_cons, List.length_nil] at hre
  rw [nextSub, (hr.app s).head, bind_ok, if_neg (high_ne_zero _ hto), if_pos (isRef_high _ hto), if_neg (by omega),
    (hr.app s).u16 (by omega), bind_ok, show (0xC000 + to) % 16384 = to from by omega, if_neg (by omega), (h.app s).head, bind_ok, e,
    if_neg (by omega)]

/-! ### Names -/

theorem NameAt.bounds {p : Bytes} {off fin : Nat} {ls : List Bytes} (h : NameAt p off ls fin) : off < fin ∧ fin ≤ p.length := by
  induction h with
  | stop h => have := h.le; simp at this; omega
  | label hl h64 hh _ ih => omega
  | ref hto hr hl h64 hh _ ih => have := hr.le; simp [net16] at this; omega

theorem put_eq (cap : Nat) (acc l rest : Bytes) (h : acc.length ≤ cap) :
    (put cap acc l).length ≤ cap ∧ (put cap acc l ++ rest).take cap = (acc ++ (l ++ [46]) ++ rest).take cap := by
  unfold put
  simp only
  by_cases hl : l.length < cap - acc.length
  · rw [List.take_of_length_le (by omega), if_pos (by simp; omega)]
    constructor
    · simp; omega
    · simp
  · have hlen : (acc ++ l.take (cap - acc.length)).length = cap := by simp; omega
    rw [if_neg (by omega)]
    refine ⟨by omega, ?_⟩
    have e : (acc ++ l.take (cap - acc.length)) = (acc ++ l).take cap := by
      rw [List.take_append, List.take_of_length_le h]
    have e1 : (acc ++ l.take (cap - acc.length) ++ rest).take cap = acc ++ l.take (cap - acc.length) := by
      rw [List.take_append_of_le_length (by omega), List.take_of_length_le (by omega)]
    have e2 : (acc ++ (l ++ [46]) ++ rest).take cap = (acc ++ l).take cap := by
      rw [← List.append_assoc acc l [46], List.append_assoc (acc ++ l), List.take_append_of_le_length (by rw [List.length_append]; omega)]
    rw [e1, e2, e]

/-- Reading a name gives its text, cut to the size of the buffer, and the offset behind it. -/
theorem extract_name {p : Bytes} {off fin : Nat} {ls : List Bytes} (h : NameAt p off ls fin) (s : Bytes) (cap fuel : Nat)
    (f0 : Option Nat) (acc : Bytes) (ha : acc.length ≤ cap) (hf : ls.length < fuel) :
    extract (p ++ s) p.length cap fuel off f0 acc = .ok (some ((acc ++ text ls).take cap, f0.getD fin)) := by
  induction h generalizing fuel f0 acc with
  | stop h =>
    cases fuel with
    | zero => simp at hf
    | succ fuel =>
      rw [extract, nextSub_stop h, bind_ok]
      simp [text, List.take_of_length_le ha]
  | @label off l ls fin hl h64 hh hn ih =>
    cases fuel with
    | zero => simp at hf
    | succ fuel =>
      have h0 : l.length ≠ 0 := by simpa using hl
      have hc : copy (p ++ s) (off + 1) l.length = .ok l := (Has.right (a := [_]) (hh.app s)).copy rfl
      obtain ⟨p1, p2⟩ := put_eq cap acc l (text ls) ha
      rw [extract, nextSub_label hl h64 hh, bind_ok]
      simp only [Bool.false_and, Bool.false_eq_true, if_false]
      rw [if_neg h0, hc, bind_ok, ih fuel f0 _ p1 (by simpa using hf), p2]
      simp [text]
  | @ref off to l ls fin hto hr hl h64 hh hn ih =>
    cases fuel with
    | zero => simp at hf
    | succ fuel =>
      have h0 : l.length ≠ 0 := by simpa using hl
      have hc : copy (p ++ s) (to + 1) l.length = .ok l := (Has.right (a := [_]) (hh.app s)).copy rfl
      obtain ⟨p1, p2⟩ := put_eq cap acc l (text ls) ha
      rw [extract, nextSub_ref hto hr h64 hh, bind_ok]
      simp only [Bool.true_and]
      rw [if_neg h0, hc, bind_ok, ih fuel _ _ p1 (by simpa using hf), p2]
      cases f0 <;> simp [text]

theorem extractText_name {p : Bytes} {off fin : Nat} {ls : List Bytes} (h : NameAt p off ls fin) (s : Bytes) (cap fuel : Nat)
    (hc : (text ls).length ≤ cap) (hf : ls.length < fuel) : extractText (p ++ s) p.length cap fuel off = .ok (text ls) := by
  rw [extractText, extract_name h s cap fuel none [] (by simp) hf, bind_ok]
  simp [List.take_of_length_le hc]

/-- A name is skipped. -/
theorem skip_name {p : Bytes} {off fin : Nat} {ls : List Bytes} (h : NameAt p off ls fin) (s : Bytes) (fuel : Nat)
    (hf : p.length < fuel + off) : skip (p ++ s) p.length fuel off = .ok (some fin) := by
  induction h generalizing fuel with
  | stop h =>
    have := h.le
    cases fuel with
    | zero => simp at this; omega
    | succ fuel =>
      rw [skip, nextSub_stop h, bind_ok]
      simp
  | @label off l ls fin hl h64 hh hn ih =>
    have := hh.le
    cases fuel with
    | zero => simp at this; omega
    | succ fuel =>
      have h0 : l.length ≠ 0 := by simpa using hl
      rw [skip, nextSub_label hl h64 hh, bind_ok]
      simp only [Bool.false_eq_true, if_false]
      rw [if_neg h0]
      exact ih fuel (by omega)
  | @ref off to l ls fin hto hr hl h64 hh hn ih =>
    have := hr.le
    cases fuel with
    | zero => simp [net16] at this; omega
    | succ fuel =>
      rw [skip, nextSub_ref hto hr h64 hh, bind_ok]
      simp

/-- Two names are compared label by label without regard to case. -/
def sameLabels : List Bytes → List Bytes → Bool
  | [], [] => true
  | a :: as, b :: bs => a.length == b.length && sameNoCase b a && sameLabels as bs
  | _, _ => false

theorem equal_names {p p' : Bytes} {off fin off' fin' : Nat} {ls ls' : List Bytes} (h : NameAt p off ls fin) (h' : NameAt p' off' ls' fin')
    (s s' : Bytes) (fuel : Nat) (f0 f0' : Option Nat) (hf : ls'.length < fuel) :
    equal (p ++ s) p.length (p' ++ s') p'.length fuel off f0 off' f0' =
      .ok (if sameLabels ls ls' then some (f0.getD fin, f0'.getD fin') else none) := by
  -- what the next part of a name is
  have view : ∀ {q : Bytes} {o f : Nat} {ks : List Bytes}, NameAt q o ks f → ∀ t : Bytes,
      (ks = [] ∧ f = o + 1 ∧ nextSub (q ++ t) q.length o = .ok (some ⟨o, 0, false⟩)) ∨
      ∃ k ks' st r f', ks = k :: ks' ∧ k ≠ [] ∧ nextSub (q ++ t) q.length o = .ok (some ⟨st, k.length, r⟩) ∧
        copy (q ++ t) st k.length = .ok k ∧ NameAt q (st + k.length) ks' f' ∧
        (∀ g : Option Nat, (if r && g.isNone then some (o + 2) else g).getD f' = g.getD f) := by
    intro q o f ks hq t
    cases hq with
    | stop hs => exact Or.inl ⟨rfl, rfl, nextSub_stop hs⟩
    | @label _ l ls _ hl h64 hh hn =>
      exact Or.inr ⟨l, ls, o + 1, false, f, rfl, hl, nextSub_label hl h64 hh, (Has.right (a := [_]) (hh.app t)).copy rfl, by simpa using hn,
        by simp⟩
    | @ref _ to l ls fin hto hr hl h64 hh hn =>
      exact Or.inr ⟨l, ls, to + 1, true, fin, rfl, hl, nextSub_ref hto hr h64 hh, (Has.right (a := [_]) (hh.app t)).copy rfl, by simpa using hn,
        by intro g; cases g <;> simp⟩
  induction fuel generalizing off fin off' fin' ls ls' f0 f0' with
  | zero => omega
  | succ fuel ih =>
    rcases view h s with ⟨rfl, rfl, e⟩ | ⟨k, ks, st, r, f, rfl, hk, e, hc, hn, hg⟩ <;>
    rcases view h' s' with ⟨rfl, rfl, e'⟩ | ⟨k', ks', st', r', f', rfl, hk', e', hc', hn', hg'⟩
    · rw [equal, e, bind_ok, e', bind_ok]
      simp [copy, sameLabels]
      have := h.bounds
      have := h'.bounds
      rw [if_pos (by omega), bind_ok, if_pos (by omega), bind_ok]
      rfl
    · have h0 : k'.length ≠ 0 := by simpa using hk'
      rw [equal, e, bind_ok, e', bind_ok]
      simp only
      rw [if_pos (by omega)]
      simp [sameLabels]
    · have h0 : k.length ≠ 0 := by simpa using hk
      rw [equal, e, bind_ok, e', bind_ok]
      simp only
      rw [if_pos (by omega)]
      simp [sameLabels]
    · have h0 : k.length ≠ 0 := by simpa using hk
      rw [equal, e, bind_ok, e', bind_ok]
      simp only
      by_cases hl : k.length = k'.length
      · rw [if_neg (by omega), hc, bind_ok, hc', bind_ok]
        by_cases hs : sameNoCase k' k = true
        · rw [if_pos hs, if_neg h0, ih hn hn' _ _ (by simpa using hf), hg, hg']
          simp [sameLabels, hl, hs]
        · rw [if_neg hs]
          simp [sameLabels, hs]
      · rw [if_pos hl]
        simp [sameLabels, hl]

/-! ### Whatever the bytes are -/

theorem nextSub_some {m : Bytes} {size off : Nat} {x : Sub} (h : nextSub m size off = .ok (some x)) :
    off < m.length ∧ (x.length = 0 ∧ x.ref = false ∧ x.offset = off ∨ x.offset + x.length ≤ size ∧ (x.ref = false → x.offset = off + 1 ∧ x.length ≠ 0)) := by
  unfold nextSub byteAt at h
  cases hb : m[off]? with
  | none => simp [hb] at h
  | some b =>
    have hlt : off < m.length := by
      rcases Nat.lt_or_ge off m.length with h | h
      · exact h
      · rw [List.getElem?_eq_none h] at hb; exact absurd hb (by simp)
    refine ⟨hlt, ?_⟩
    simp only [hb, bind_ok] at h
    split at h
    · injection h with h; injection h with h; subst h; exact Or.inl ⟨rfl, rfl, rfl⟩
    · rename_i hb0
      have hb1 : b.toNat ≠ 0 := fun he => hb0 (BitVec.eq_of_toNat_eq (by simpa using he))
      split at h
      · split at h
        · simp at h
        · cases hw : u16 m off with
          | outside => simp [hw] at h
          | running => simp [hw] at h
          | ok w =>
            simp only [hw, bind_ok] at h
            split at h
            · simp at h
            · cases hz : m[w % 16384]? with
              | none => simp [hz] at h
              | some z =>
                simp only [hz, bind_ok] at h
                split at h
                · simp at h
                · injection h with h; injection h with h; subst h
                  exact Or.inr ⟨by simp only; omega, by simp⟩
      · split at h
        · simp at h
        · injection h with h; injection h with h; subst h
          exact Or.inr ⟨by simp only; omega, fun _ => ⟨rfl, hb1⟩⟩

theorem u16_ne_running (m : Bytes) (i : Nat) : u16 m i ≠ .running := by
  unfold u16 byteAt
  cases m[i]? <;> cases m[i + 1]? <;> simp

theorem nextSub_ne_running (m : Bytes) (size off : Nat) : nextSub m size off ≠ .running := by
  unfold nextSub byteAt
  cases m[off]? with
  | none => simp
  | some b =>
    simp only [bind_ok]
    split
    · simp
    · split
      · split
        · simp
        · cases hw : u16 m off with
          | outside => simp
          | running => exact absurd hw (u16_ne_running m off)
          | ok w =>
            simp only [bind_ok]
            split
            · simp
            · cases m[w % 16384]? with
              | none => simp
              | some z => simp only [bind_ok]; split <;> simp
      · split <;> simp

/-- Skipping a name ends, whatever the bytes are: every round moves on. -/
theorem skip_ends (m : Bytes) (size : Nat) (_hs : size ≤ m.length) (fuel cur : Nat) (hf : 1 ≤ fuel) (h : m.length < fuel + cur) :
    skip m size fuel cur ≠ .running := by
  induction fuel generalizing cur with
  | zero => omega
  | succ fuel ih =>
    rw [skip]
    cases hn : nextSub m size cur with
    | outside => simp
    | running => exact absurd hn (nextSub_ne_running m size cur)
    | ok o =>
      cases o with
      | none => simp
      | some x =>
        obtain ⟨h1, h2⟩ := nextSub_some hn
        simp only [bind_ok]
        split
        · simp
        · split
          · simp
          · rename_i hr h0
            rcases h2 with ⟨a, _, _⟩ | ⟨a, b⟩
            · exact absurd a h0
            · obtain ⟨b1, b2⟩ := b (by simpa using hr)
              exact ih _ (by omega) (by omega)

theorem put_length (cap : Nat) (acc l : Bytes) (h : acc.length ≤ cap) : (put cap acc l).length ≤ cap := (put_eq cap acc l [] h).1

/-- The text of a name is never longer than its buffer, whatever the bytes are. -/
theorem extract_length (m : Bytes) (size cap fuel cur : Nat) (f0 : Option Nat) (acc t : Bytes) (e : Nat) (ha : acc.length ≤ cap)
    (h : extract m size cap fuel cur f0 acc = .ok (some (t, e))) : t.length ≤ cap := by
  induction fuel generalizing cur f0 acc with
  | zero => simp [extract] at h
  | succ fuel ih =>
    rw [extract] at h
    cases hn : nextSub m size cur with
    | outside => simp [hn] at h
    | running => simp [hn] at h
    | ok o =>
      cases o with
      | none => simp [hn] at h
      | some x =>
        simp only [hn, bind_ok] at h
        split at h
        · injection h with h; injection h with h; injection h with h1 h2; subst h1; exact ha
        · cases hc : copy m x.offset x.length with
          | outside => simp [hc] at h
          | running => simp [hc] at h
          | ok l =>
            simp only [hc, bind_ok] at h
            exact ih _ _ _ (put_length cap acc l ha) h

end Verif.Mdns
