import Verif.Mdns.Lemmas

/-!
# Lemmas: reading records and packets
-/

namespace Verif.Mdns

theorem text_length (ls : List Bytes) : ls.length ≤ (text ls).length := by
  induction ls with
  | nil => simp
  | cons l ls ih =>
    have : text (l :: ls) = l ++ [46] ++ text ls := by simp [text]
    rw [this]
    simp
    omega

theorem NameIs.text {p n : Bytes} {off fin : Nat} (h : NameIs p off n fin) (s : Bytes) (fuel : Nat) (hf : 257 ≤ fuel) :
    extractText (p ++ s) p.length 256 fuel off = .ok n := by
  obtain ⟨ls, h, rfl, hl⟩ := h
  have := text_length ls
  exact extractText_name h s 256 fuel hl (by omega)

theorem NameIs.skip {p n : Bytes} {off fin : Nat} (h : NameIs p off n fin) (s : Bytes) :
    skip (p ++ s) p.length ((p ++ s).length + 1) off = .ok (some fin) := by
  obtain ⟨ls, h, -, -⟩ := h
  exact skip_name h s _ (by simp; omega)

theorem NameIs.bounds {p n : Bytes} {off fin : Nat} (h : NameIs p off n fin) : off < fin ∧ fin ≤ p.length := by
  obtain ⟨ls, h, -, -⟩ := h
  exact h.bounds

theorem NameAt.two {p : Bytes} {off fin : Nat} {ls : List Bytes} (h : NameAt p off ls fin) : ls = [] ∨ off + 2 ≤ fin := by
  cases h with
  | stop => exact Or.inl rfl
  | label hl h64 hh hn => right; have := hn.bounds; omega
  | ref => right; omega

theorem NameIs.two {p n : Bytes} {off fin : Nat} (h : NameIs p off n fin) : n = [] ∨ off + 2 ≤ fin := by
  obtain ⟨ls, h, rfl, -⟩ := h
  rcases h.two with rfl | h
  · exact Or.inl rfl
  · exact Or.inr h

/-- The callback for a record gives what is written in it. -/
theorem queryCallback_record {p n : Bytes} {off e fin type : Nat} {i : Item} (hn : NameIs p off n e) (hd : DataAt p (e + 10) fin n type i)
    (s : Bytes) (fuel : Nat) (hf : 257 ≤ fuel) (en : Entry) (cls ttl len nl : Nat) (hl : fin = e + 10 + len) :
    queryCallback (p ++ s) p.length fuel ⟨en, type, cls, ttl, off, nl, e + 10, len⟩ = .ok i := by
  rw [queryCallback, hn.text s fuel hf, bind_ok]
  cases hd with
  | ptr ht =>
    have := ht.bounds
    simp only [if_true]
    rw [parsePtr]
    by_cases h2 : e + 10 + len ≤ p.length ∧ 2 ≤ len
    · rw [if_pos h2, ht.text s fuel hf, bind_ok]
    · rw [if_neg h2, bind_ok]
      rcases ht.two with rfl | h
      · rfl
      · omega
  | srv hp hport ht hne =>
    have := ht.bounds
    have h1 := (hp.app s).left.left
    have h2 := (hp.app s).left.right
    have h3 := (hp.app s).right
    have e1 : ∀ x : Nat, (net16 x).length = 2 := fun _ => rfl
    rw [e1] at h2
    simp only [List.length_append, e1] at h3
    have key : ∀ (x o : Nat), Has (p ++ s) o (net16 x) → ∃ y, u16 (p ++ s) o = .ok y := by
      intro x o hx
      have a := hx.get 0 (by simp [net16])
      have b := hx.get 1 (by simp [net16])
      rw [Nat.add_zero] at a
      exact ⟨_, by rw [u16, a, bind_ok, b, bind_ok]⟩
    obtain ⟨y1, k1⟩ := key _ _ h1
    obtain ⟨y2, k2⟩ := key _ _ h2
    rcases ht.two with h | h
    · exact absurd h hne
    · simp only [show ¬ (33 : Nat) = 12 from by decide, if_false, if_true]
      rw [parseSrv, if_pos (by omega), k1, bind_ok, k2, bind_ok, h3.u16 hport, bind_ok, ht.text s fuel hf, bind_ok, bind_ok]
  | a h h4 hfin =>
    have := h.le
    simp only [show ¬ (1 : Nat) = 12 from by decide, show ¬ (1 : Nat) = 33 from by decide, if_false, if_true]
    rw [parseIp, if_pos (by omega), (h.app s).copy h4.symm, bind_ok]
  | aaaa h h16 hfin =>
    have := h.le
    simp only [show ¬ (28 : Nat) = 12 from by decide, show ¬ (28 : Nat) = 33 from by decide, show ¬ (28 : Nat) = 1 from by decide, if_false, if_true]
    rw [parseIp, if_pos (by omega), (h.app s).copy h16.symm, bind_ok]
  | txt h hfin =>
    simp only [show ¬ (16 : Nat) = 12 from by decide, show ¬ (16 : Nat) = 33 from by decide, show ¬ (16 : Nat) = 1 from by decide,
      show ¬ (16 : Nat) = 28 from by decide, if_false, if_true]
    rw [(h.app s).copy (by omega), bind_ok]
  | other h1 h2 h3 h4 h5 _ _ =>
    simp only [h1, h2, h3, h4, h5, if_false]

theorem someU16 {m : Bytes} {x o : Nat} (hx : Has m o (net16 x)) : ∃ y, u16 m o = .ok y := by
  have a := hx.get 0 (by simp [net16])
  have b := hx.get 1 (by simp [net16])
  rw [Nat.add_zero] at a
  exact ⟨_, by rw [u16, a, bind_ok, b, bind_ok]⟩

theorem someU32 {m : Bytes} {x o : Nat} (hx : Has m o (net32 x)) : ∃ y, u32 m o = .ok y := by
  obtain ⟨a, ha⟩ := someU16 hx.left
  obtain ⟨b, hb⟩ := someU16 hx.right
  rw [show (net16 (x / 65536)).length = 2 from rfl] at hb
  exact ⟨_, by rw [u32, ha, bind_ok, hb, bind_ok]⟩

/-- Records are read one after the other. -/
theorem records_read {p : Bytes} {off fin : Nat} {is : List Item} (h : RecordsAt p off is fin) (s : Bytes) (fuel : Nat) (hf : 257 ≤ fuel)
    (en : Entry) : records (p ++ s) p.length en (queryCallback (p ++ s) p.length fuel) is.length off = .ok (is, fin) := by
  induction h with
  | none => rfl
  | @one off i o is fin h1 _ ih =>
    obtain ⟨n, e, type, cls, ttl, len, hn, ht, hlen, hh, hfin, hd⟩ := h1
    have g1 := (hh.app s).left.left.left
    have g2 := (hh.app s).left.left.right
    have g3 := (hh.app s).left.right
    have g4 := (hh.app s).right
    have e1 : ∀ x : Nat, (net16 x).length = 2 := fun _ => rfl
    have e2 : ∀ x : Nat, (net32 x).length = 4 := fun _ => rfl
    rw [e1] at g2
    simp only [List.length_append, e1] at g3
    simp only [List.length_append, e1, e2] at g4
    obtain ⟨y2, k2⟩ := someU16 g2
    obtain ⟨y3, k3⟩ := someU32 g3
    rw [List.length_cons, records, hn.skip s, bind_ok]
    simp only [Option.getD_some]
    rw [g1.u16 ht, bind_ok, k2, bind_ok, k3, bind_ok, g4.u16 hlen, bind_ok, queryCallback_record hn hd s fuel hf _ _ _ _ _ hfin, bind_ok,
      ← hfin, ih, bind_ok]

theorem header_read {p : Bytes} {id flags q a u d : Nat} (h : HeaderAt p id flags q a u d) (s : Bytes) :
    (∃ y, u16 (p ++ s) 0 = .ok y) ∧ u16 (p ++ s) 2 = .ok flags ∧ u16 (p ++ s) 4 = .ok q ∧ u16 (p ++ s) 6 = .ok a ∧
    u16 (p ++ s) 8 = .ok u ∧ u16 (p ++ s) 10 = .ok d ∧ 12 ≤ p.length := by
  obtain ⟨h0, h1, h2, h3, h4, hh⟩ := h
  have hle := hh.le
  have e1 : ∀ x : Nat, (net16 x).length = 2 := fun _ => rfl
  have g := hh.app s
  have g0 := g.left.left.left.left.left
  have g1 := g.left.left.left.left.right
  have g2 := g.left.left.left.right
  have g3 := g.left.left.right
  have g4 := g.left.right
  have g5 := g.right
  simp only [List.length_append, e1] at g1 g2 g3 g4 g5 hle
  exact ⟨someU16 g0, g1.u16 h0, g2.u16 h1, g3.u16 h2, g4.u16 h3, g5.u16 h4, by omega⟩

/-- A packet is read: all its records, whatever is in the buffer behind it. -/
theorem receive_packet {p : Bytes} {items : List Item} (h : IsAnswer p items) (s : Bytes) (fuel : Nat) (hf : 257 ≤ fuel) :
    receive (p ++ s) p.length fuel = .ok items := by
  obtain ⟨id, flags, q, as, us, ds, o1, o2, o3, o4, rfl, hh, hq, ha, hu, hd⟩ := h
  obtain ⟨⟨y, k0⟩, k1, k2, k3, k4, k5, hle⟩ := header_read hh s
  have hskip : skipQuestions (p ++ s) p.length q 12 = .ok (some o1) ∧ ¬ 1 < q := by
    rcases hq with ⟨rfl, rfl⟩ | ⟨rfl, n, type, cls, e, hn, ht, hc, hhas, rfl⟩
    · exact ⟨rfl, by omega⟩
    · refine ⟨?_, by omega⟩
      have g1 := (hhas.app s).left
      have g2 := (hhas.app s).right
      rw [show (net16 type).length = 2 from rfl] at g2
      rw [skipQuestions, hn.skip s, bind_ok]
      simp only
      rw [g1.u16 ht, bind_ok, g2.u16 hc, bind_ok]
      rfl
  rw [receive, queryRecv, if_neg (by omega), k0, bind_ok, k1, bind_ok, k2, bind_ok, k3, bind_ok, k4, bind_ok, k5, bind_ok, if_neg hskip.2,
    hskip.1, bind_ok]
  simp only
  rw [records_read ha s fuel hf, bind_ok, records_read hu s fuel hf, bind_ok, records_read hd s fuel hf, bind_ok]

end Verif.Mdns
