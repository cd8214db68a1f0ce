import Verif.Mvr.SaveProps
import Verif.Mvr.StableSpec

/-!
# C94: a scene is saved as the same text again
-/

namespace Verif.Mvr

open Verif.Str Verif.Text Verif.Real Verif.Dmx Spec Inner

/-! ### Values -/

theorem print_again (F : Fl) {x : Dbl} (h1 : 0 ≤ x.mag) (h2 : Moderate x) : printReal (atof F (printReal x)) = printReal x :=
  C47_stable F x ⟨h1, h2⟩

theorem close_eq {v w : Val} (h : Close v w) : v = w ∨ (∃ x, v = .real x) ∨ (∃ x, v = .vec x) ∨ (∃ x, v = .color x) ∨ (∃ x, v = .matrix x) ∨
    ∃ a b c, v = .command a b c := by
  cases v <;> first | exact .inl h | simp

/-- What is read from the text of a value has the same text. -/
theorem enc_again (F : Fl) (c : Codec) (v old : Val) (h : Kept c v) (hm : ModerateVal v) : enc c (dec F c old ((enc c v).getD [])) = enc c v := by
  rcases close_eq (value_back F c v old h) with e | ⟨x, rfl⟩ | ⟨x, rfl⟩ | ⟨x, rfl⟩ | ⟨x, rfl⟩ | ⟨fn, p, x, rfl⟩
  · rw [← e]
  all_goals cases c <;> simp only [Kept] at h
  · simp [enc, dec, printReal_ne_nil, print_again F h hm]
  · have hd : dec F .vec old ((enc .vec (.vec x)).getD []) = .vec ⟨reread F x.x, reread F x.y, reread F x.z⟩ := by simp [enc, dec, C47_vector, result]
    rw [hd]
    simp only [enc, writeVector, reread, print_again F h.1 hm.1, print_again F h.2.1 hm.2.1, print_again F h.2.2 hm.2.2]
  · have hd : dec F .color old ((enc .color (.color x)).getD []) = .color ⟨reread F x.x, reread F x.y, reread F x.z⟩ := by simp [enc, dec, C47_color, result]
    rw [hd]
    simp only [enc, writeColor, reread, print_again F h.1 hm.1, print_again F h.2.1 hm.2.1, print_again F h.2.2 hm.2.2]
  · have hd : dec F .matrix old ((enc .matrix (.matrix x)).getD []) = .matrix (x.map (reread F)) := by simp [enc, dec, C19_mvr, result]
    rw [hd]
    obtain ⟨⟨a1, a2, a3⟩, ⟨b1, b2, b3⟩, ⟨c1, c2, c3⟩, d1, d2, d3⟩ := h
    obtain ⟨⟨p1, p2, p3⟩, ⟨q1, q2, q3⟩, ⟨r1, r2, r3⟩, s1, s2, s3⟩ := hm
    simp only [enc, reread, Mat.map, Mat.mapV, writeMatrixMvr, print_again F a1 p1, print_again F a2 p2, print_again F a3 p3,
      print_again F b1 q1, print_again F b2 q2, print_again F b3 q3, print_again F c1 r1, print_again F c2 r2, print_again F c3 r3,
      print_again F d1 s1, print_again F d2 s2, print_again F d3 s3]
  · have hd : dec F .command old ((enc .command (.command fn p x)).getD []) = .command fn p (atof F (printReal x)) :=
      command_back F fn p x h.1 h.2.1
    rw [hd]
    simp only [enc, writeCommand, print_again F h.2.2 hm]

/-- The texts that are written for the values that were read. -/
theorem fields_again (F : Fl) (e : Xml) : ∀ (fs : List Field) (vs : List Val), Straight fs → KeptAll fs vs → (∀ v ∈ vs, ModerateVal v) →
    (∀ (i : Nat) (f : Field) (v : Val), fs[i]? = some f → vs[i]? = some v → f.place.get e = (enc f.codec v).getD []) →
    attrsOf fs (decAll F fs e) = attrsOf fs vs ∧ textOf fs (decAll F fs e) = textOf fs vs
  | [], [], _, _, _, _ => by simp [decAll, attrsOf, textOf]
  | [], _ :: _, _, h, _, _ => absurd h (by simp [KeptAll])
  | _ :: _, [], _, h, _, _ => absurd h (by simp [KeptAll])
  | f :: fs, v :: vs, hs, h, hm, hg => by
    have ih := fields_again F e fs vs (fun g hm => hs g (List.mem_cons_of_mem _ hm)) h.2 (fun w hw => hm w (by simp [hw]))
      (fun i g w hi hw => hg (i + 1) g w (by simpa using hi) (by simpa using hw))
    obtain ⟨h1, h2⟩ := hs f (List.mem_cons_self ..)
    have he : enc f.codec (dec F f.rcodec f.init (f.rplace.get e)) = enc f.codec v := by
      rw [h1, h2, hg 0 f v rfl rfl]
      exact enc_again F f.codec v f.init h.1 (hm v (by simp))
    unfold decAll at ih ⊢
    rw [List.map_cons, attrsOf, attrsOf, textOf, textOf, he, ih.1, ih.2]
    exact ⟨rfl, rfl⟩

/-! ### Matrices that are left out -/

theorem shown_near (F : Fl) {x : Dbl} (h1 : 0 ≤ x.mag) (h2 : Moderate x) (t : Int) (ht : t = 0 ∨ t = 1000000)
    (h : |signed (atof F (printReal x)) - (t : ℚ) / 1000000| ≤ 1 / 10000000) : millionths x = t := by
  rw [atof_print] at h
  have hf := fl_near F (micro x) (micro_le x ⟨h1, h2⟩)
  unfold signed at h
  unfold millionths
  generalize F.fl ((micro x : ℚ) / 1000000) = y at *
  generalize micro x = k at *
  rw [abs_le] at h
  rw [abs_lt] at hf
  have key : ∀ i : Int, |((i : ℚ) - t)| < 1 → i = t := by
    intro i hi
    have : |i - t| < 1 := by exact_mod_cast hi
    rw [Int.abs_lt_one_iff] at this
    omega
  cases hn : x.neg with
  | false =>
    rw [hn] at h
    simp only [Bool.false_eq_true, if_false] at h ⊢
    apply key
    rw [abs_lt]
    push_cast
    constructor <;> linarith [h.1, h.2, hf.1, hf.2]
  | true =>
    rw [hn] at h
    simp only [if_true] at h ⊢
    apply key
    rw [abs_lt]
    push_cast
    constructor <;> linarith [h.1, h.2, hf.1, hf.2]

theorem shows_near (F : Fl) {v : V3} (h1 : 0 ≤ v.x.mag ∧ 0 ≤ v.y.mag ∧ 0 ≤ v.z.mag) (h2 : ModerateV v) {a b c : Int} {w : V3}
    (ha : a = 0 ∨ a = 1000000) (hb : b = 0 ∨ b = 1000000) (hc : c = 0 ∨ c = 1000000)
    (wa : signed w.x = (a : ℚ) / 1000000) (wb : signed w.y = (b : ℚ) / 1000000) (wc : signed w.z = (c : ℚ) / 1000000)
    (h : pointEq ⟨atof F (printReal v.x), atof F (printReal v.y), atof F (printReal v.z)⟩ w = true) : Shows v a b c := by
  unfold pointEq at h
  obtain ⟨e1, e2, e3⟩ := small_of_sq (by norm_num) (of_decide_eq_true h)
  rw [wa] at e1; rw [wb] at e2; rw [wc] at e3
  exact ⟨shown_near F h1.1 h2.1 a ha e1, shown_near F h1.2.1 h2.2.1 b hb e2, shown_near F h1.2.2 h2.2.2 c hc e3⟩

theorem identity_again (F : Fl) {m : Mat} (h1 : Kept .matrix (.matrix m)) (h2 : ModerateVal (.matrix m)) (hi : isIdentity m = false) (ha : ¬ Almost m) :
    isIdentity (m.map (reread F)) = false := by
  cases hb : isIdentity (m.map (reread F)) with
  | false => rfl
  | true =>
    exfalso
    apply ha
    obtain ⟨a, b, c, d⟩ := h1
    obtain ⟨p, q, r, s⟩ := h2
    unfold isIdentity at hb
    simp only [Bool.and_eq_true] at hb
    obtain ⟨⟨⟨e1, e2⟩, e3⟩, e4⟩ := hb
    have z0 : signed zero = ((0 : Int) : ℚ) / 1000000 := by simp [signed, zero]
    have z1 : signed one = ((1000000 : Int) : ℚ) / 1000000 := by simp [signed, one]
    have e1' : pointEq (m.map (reread F)).o ⟨zero, zero, zero⟩ = true := by
      unfold isOrigin at e1
      have h := of_decide_eq_true e1
      unfold pointEq
      have hz : signed zero = 0 := by simp [signed, zero]
      simp only [hz, sub_zero, h]
      norm_num
    exact ⟨hi, shows_near F a p (.inr rfl) (.inl rfl) (.inl rfl) z1 z0 z0 e2, shows_near F b q (.inl rfl) (.inr rfl) (.inl rfl) z0 z1 z0 e3,
      shows_near F c r (.inl rfl) (.inl rfl) (.inr rfl) z0 z0 z1 e4, shows_near F d s (.inl rfl) (.inl rfl) (.inl rfl) z0 z0 z0 e1'⟩

theorem fresh_skipped {c : Class} (hc : c ∈ classes) (h1 : c.skip ≠ .never) (h2 : c.skip ≠ .noChildren) : skipped classes (fresh classes c.name) = true := by
  have h : ∀ c ∈ classes, c.skip = .never ∨ c.skip = .noChildren ∨ skipped classes (fresh classes c.name) = true := by decide +kernel
  rcases h c hc with h | h | h
  · exact absurd h h1
  · exact absurd h h2
  · exact h

/-! ### Members -/

/-- What a member finds in the node that was written. -/
theorem slot_found (s : Slot) (k : List Obj) (hs : slotOk classes s = true) (hf : Fits s k) (ht : ∀ o ∈ k, Tree o)
    (rd : String → Xml → Obj) (n : Text) (at' : List (Text × Text)) (t : Text)
    (pre post : List Xml) (h1 : ∀ e ∈ pre, hears s e.name = false) (h2 : ∀ e ∈ post, hears s e.name = false) :
    (s.place (.elem n at' t (pre ++ s.wrap (writeList classes k) (!k.isEmpty) ++ post))).filterMap
      (fun c => (s.created c).map (fun cls => rd cls c)) = (k.filter (fun o => !skipped classes o)).map (fun o => rd o.cls (write classes o)) := by
  unfold slotOk at hs
  simp only [Bool.and_eq_true, List.all_eq_true] at hs
  obtain ⟨⟨⟨⟨ha, hw⟩, hsk⟩, hgr⟩, hnu⟩ := hs
  have hfound : (s.place (.elem n at' t (pre ++ s.wrap (writeList classes k) (!k.isEmpty) ++ post))).filterMap
      (fun c => (s.created c).map (fun cls => rd cls c)) = s.found rd (writeList classes k) :=
    found_place s rd n at' t pre (writeList classes k) post _ h1 h2 (beq_iff_eq.1 hw) (by
      intro h
      have : k = [] := by simpa using h
      rw [this]
      simp [writeList])
  rw [hfound, writeList_map, Slot.found, List.filterMap_map, ← List.filterMap_eq_map]
  apply filterMap_congr'
  intro o ho
  have hc : s.created (write classes o) = some o.cls := by
    have hok := (List.mem_filter.1 ho).1
    have hnone : (s.needsUuid && ((write classes o).attr? "uuid".toList).isNone) = false := by
      cases hnu' : s.needsUuid with
      | false => rfl
      | true =>
        rw [hnu'] at hnu
        simp only [Bool.not_true, Bool.false_or, List.all_eq_true] at hnu
        rw [Bool.true_and]
        exact uuid_written (ht o hok) (hnu _ (hf.1 o hok))
    unfold Slot.created
    rw [hnone, write_name]
    exact beq_iff_eq.1 (ha _ (hf.1 o hok))
  simp [hc]

/-- One member is written as before. -/
theorem slot_again (s : Slot) (k : List Obj) (hs : slotOk classes s = true) (hf : Fits s k) (ht : ∀ o ∈ k, Tree o)
    (rd : String → Xml → Obj) (hr : ∀ o ∈ k, write classes (rd o.cls (write classes o)) = write classes o)
    (hk : ∀ o ∈ k, skipped classes o = false → skipped classes (rd o.cls (write classes o)) = false) (hg : ∀ o ∈ k, ¬ EmptyGroup o)
    (n : Text) (at' : List (Text × Text)) (t : Text)
    (pre post : List Xml) (h1 : ∀ e ∈ pre, hears s e.name = false) (h2 : ∀ e ∈ post, hears s e.name = false) :
    writeList classes (s.read classes rd (.elem n at' t (pre ++ s.wrap (writeList classes k) (!k.isEmpty) ++ post))) = writeList classes k ∧
      (s.read classes rd (.elem n at' t (pre ++ s.wrap (writeList classes k) (!k.isEmpty) ++ post))).isEmpty = k.isEmpty := by
  have hfound := slot_found s k hs hf ht rd n at' t pre post h1 h2
  unfold slotOk at hs
  simp only [Bool.and_eq_true, List.all_eq_true] at hs
  obtain ⟨⟨⟨⟨-, -⟩, hsk⟩, hgr⟩, -⟩ := hs
  have hf2 := hf.2
  have hall : (∀ o ∈ k, skipped classes o = false) →
      writeList classes (k.map (fun o => rd o.cls (write classes o))) = writeList classes k ∧ (k.map (fun o => rd o.cls (write classes o))).isEmpty = k.isEmpty := by
    intro h
    constructor
    · have h1 : k.filter (fun o => !skipped classes o) = k := List.filter_eq_self.2 (fun o ho => by rw [h o ho]; rfl)
      have h2 : (k.map (fun o => rd o.cls (write classes o))).filter (fun o => !skipped classes o) = k.map (fun o => rd o.cls (write classes o)) := by
        apply List.filter_eq_self.2
        intro x hx
        obtain ⟨o, ho, rfl⟩ := List.mem_map.1 hx
        rw [hk o ho (h o ho)]; rfl
      rw [writeList_map, writeList_map, h1, h2, List.map_map]
      exact List.map_congr_left (fun o ho => hr o ho)
    · simp
  have hfil : (∀ o ∈ k, skipped classes o = false) → k.filter (fun o => !skipped classes o) = k := fun h =>
    List.filter_eq_self.2 (fun o ho => by rw [h o ho]; rfl)
  have hnever : ∀ o ∈ k, (row classes o.cls).skip = .never → skipped classes o = false := by
    intro o _ h
    cases o with
    | mk c vs ks => rw [Obj.cls] at h; rw [skipped, h]; rfl
  unfold Slot.read
  simp only [hfound]
  cases hh : s.how with
  | many =>
    have hno : ∀ o ∈ k, skipped classes o = false := by
      intro o ho
      have h3 := hsk o.cls (hf.1 o ho)
      have h4 := hgr o.cls (hf.1 o ho)
      rw [hh] at h3 h4
      simp only [Bool.or_eq_true, Bool.and_eq_true, beq_iff_eq, bne_iff_ne] at h3 h4
      rcases h3 with h3 | h3
      · exact hnever o ho h3
      · rw [skipped_group (ht o ho) (.inr h3)]
        exact decide_eq_false (hg o ho)
    simp only
    rw [hfil hno]
    exact hall hno
  | first =>
    rw [hh] at hf2
    have hf2 : k.length ≤ 1 := hf2
    have hno : ∀ o ∈ k, skipped classes o = false := by
      intro o ho
      have h3 := hsk o.cls (hf.1 o ho)
      rw [hh] at h3
      exact hnever o ho (beq_iff_eq.1 h3)
    simp only
    rw [hfil hno, List.take_of_length_le (by simpa using hf2)]
    exact hall hno
  | needed =>
    rw [hh] at hf2
    have hf2 : k.length = 1 := hf2
    have hno : ∀ o ∈ k, skipped classes o = false := by
      intro o ho
      have h3 := hsk o.cls (hf.1 o ho)
      rw [hh] at h3
      exact hnever o ho (beq_iff_eq.1 h3)
    simp only
    rw [hfil hno, List.take_of_length_le (by simp; omega)]
    exact hall hno
  | embedded =>
    rw [hh] at hf2
    obtain ⟨o, rfl⟩ : ∃ o, k = [o] := List.length_eq_one_iff.1 hf2
    have ho : o ∈ [o] := List.mem_singleton.2 rfl
    have h3 := hsk o.cls (hf.1 o ho)
    rw [hh] at h3
    simp only [Bool.and_eq_true, bne_iff_ne, beq_iff_eq] at h3
    cases hskp : skipped classes o with
    | false =>
      rw [hfil (by simpa using hskp)]
      exact hall (by simpa using hskp)
    | true =>
      have hfr : skipped classes (fresh classes o.cls) = true := by
        cases ht o ho with
        | mk c vs ks hm hv hg hn hf hk =>
          simp only [Obj.cls, row_of hm] at h3 ⊢
          refine fresh_skipped hm ?_ h3.1
          intro e
          rw [skipped, row_of hm, e] at hskp
          cases hskp
      simp [hskp, h3.2, writeList, hfr]

/-- All members. -/
theorem slots_again (rd : String → Xml → Obj) (n : Text) (at' : List (Text × Text)) (t : Text) :
    ∀ (ks : List (List Obj)) (ss : List Slot) (pre : List Xml), ks.length = ss.length →
    (∀ p ∈ ss.zip ks, Fits p.1 p.2) → (∀ s ∈ ss, slotOk classes s = true) →
    ss.Pairwise (fun s t => apart classes s t = true) → (∀ e ∈ pre, ∀ s ∈ ss, hears s e.name = false) →
    (∀ k ∈ ks, ∀ o ∈ k, Tree o) → (∀ k ∈ ks, ∀ o ∈ k, write classes (rd o.cls (write classes o)) = write classes o) →
    (∀ k ∈ ks, ∀ o ∈ k, skipped classes o = false → skipped classes (rd o.cls (write classes o)) = false) → (∀ k ∈ ks, ∀ o ∈ k, ¬ EmptyGroup o) →
    writeSlots classes ss (ss.map (fun s => s.read classes rd (.elem n at' t (pre ++ writeSlots classes ss ks)))) = writeSlots classes ss ks ∧
      (ss.map (fun s => (s.read classes rd (.elem n at' t (pre ++ writeSlots classes ss ks))).isEmpty)) = ks.map List.isEmpty := by
  intro ks
  induction ks with
  | nil =>
    intro ss pre hl _ _ _ _ _ _ _ _
    have : ss = [] := List.length_eq_zero_iff.1 hl.symm
    rw [this]
    simp [writeSlots]
  | cons k ks ih =>
    intro ss pre hl hf hs hp hpre ht hr hk hg
    cases ss with
    | nil => cases hl
    | cons s ss =>
      have hfs : Fits s k := hf (s, k) (by simp)
      rw [List.pairwise_cons] at hp
      have hrest : ∀ e ∈ writeSlots classes ss ks, hears s e.name = false := by
        intro e he
        obtain ⟨t, ht, m, hm, hnm⟩ := writeSlots_names classes ss ks (fun p hp => hf p (by simp [hp])) e he
        have h1 := hp.1 t ht
        unfold apart at h1
        rw [Bool.and_eq_true] at h1
        rw [hnm]
        simpa using List.all_eq_true.1 h1.2 _ hm
      have hown : ∀ e ∈ pre ++ s.wrap (writeList classes k) (!k.isEmpty), ∀ t ∈ ss, hears t e.name = false := by
        intro e he t ht
        rcases List.mem_append.1 he with he | he
        · exact hpre e he t (List.mem_cons_of_mem _ ht)
        · have h1 := hp.1 t ht
          unfold apart at h1
          rw [Bool.and_eq_true] at h1
          obtain ⟨m, hm, hnm⟩ := wrap_names classes s k hfs.1 _ e he
          rw [hnm]
          simpa using List.all_eq_true.1 h1.1 _ hm
      have h3 := ih ss (pre ++ s.wrap (writeList classes k) (!k.isEmpty)) (by simpa using hl) (fun p hp => hf p (by simp [hp]))
          (fun t ht => hs t (List.mem_cons_of_mem _ ht)) hp.2 hown (fun k' hk' => ht k' (List.mem_cons_of_mem _ hk'))
          (fun k' hk' => hr k' (List.mem_cons_of_mem _ hk')) (fun k' hk' => hk k' (List.mem_cons_of_mem _ hk'))
          (fun k' hk' => hg k' (List.mem_cons_of_mem _ hk'))
      have h4 := slot_again s k (hs s (List.mem_cons_self ..)) hfs (ht k (List.mem_cons_self ..)) rd (hr k (List.mem_cons_self ..))
          (hk k (List.mem_cons_self ..)) (hg k (List.mem_cons_self ..)) n at' t pre
          (writeSlots classes ss ks) (fun e he => hpre e he s (List.mem_cons_self ..)) hrest
      rw [List.append_assoc] at h3 h4
      rw [List.map_cons, List.map_cons, List.map_cons, writeSlots, writeSlots, h3.1, h3.2, h4.1, h4.2]
      exact ⟨rfl, rfl⟩

/-! ### Objects -/

theorem steady_inside {c : String} {vs : List Val} {ks : List (List Obj)} (h : Steady (.mk c vs ks)) {k : List Obj} (hk : k ∈ ks) {o : Obj} (ho : o ∈ k) :
    Steady o where
  numbers := fun c' vs' ks' hw => h.numbers c' vs' ks' (.inside _ o c vs ks k hk ho hw)
  matrices := fun c' vs' ks' hw => h.matrices c' vs' ks' (.inside _ o c vs ks k hk ho hw)
  groups := fun x hw => h.groups x (.inside _ o c vs ks k hk ho hw)

theorem last_empty : ∀ {a b : List (List Obj)}, a.map List.isEmpty = b.map List.isEmpty → ((a.getLast?).getD []).isEmpty = ((b.getLast?).getD []).isEmpty := by
  intro a b h
  have : (a.map List.isEmpty).getLast? = (b.map List.isEmpty).getLast? := by rw [h]
  rw [List.getLast?_map, List.getLast?_map] at this
  cases ha : a.getLast? <;> cases hb : b.getLast? <;> rw [ha, hb] at this <;> simp at this ⊢
  exact this

theorem inner_again (F : Fl) (o : Obj) (h : Tree o) : Steady o → write classes (read classes F o.cls (write classes o)) = write classes o ∧
    (skipped classes o = false → skipped classes (read classes F o.cls (write classes o)) = false) := by
  induction h with
  | mk c vs ks hc hv hg hn hf hk ih =>
    intro hst
    have hok := (table_ok c hc).1
    unfold classOk at hok
    simp only [Bool.and_eq_true, List.all_eq_true, decide_eq_true_eq] at hok
    obtain ⟨⟨⟨⟨hsl, hap⟩, hdi⟩, hstr⟩, hskok⟩ := hok
    have hmod := hst.numbers _ _ _ (.self _)
    have hfields := fields_again F (.elem c.node.toList (attrsOf c.fields vs) (textOf c.fields vs) (writeSlots classes c.slots ks)) c.fields vs hstr hv hmod
      (fun i f v hi hv => get_written _ _ c.fields vs i f v hdi hi hv)
    have hslots := slots_again (read classes F) c.node.toList (attrsOf c.fields vs) (textOf c.fields vs) ks c.slots [] hn hf hsl hap (by simp) hk
      (fun k h1 o h2 => (ih k h1 o h2 (steady_inside hst h1 h2)).1) (fun k h1 o h2 => (ih k h1 o h2 (steady_inside hst h1 h2)).2)
      (fun k h1 o h2 => hst.groups o (.inside _ o _ _ _ k h1 h2 (.self o)))
    rw [List.nil_append] at hslots
    have hread : read classes F c.name (write classes (.mk c.name vs ks)) =
        .mk c.name (decAll F c.fields (.elem c.node.toList (attrsOf c.fields vs) (textOf c.fields vs) (writeSlots classes c.slots ks)))
          (c.slots.map fun s => s.read classes (read classes F) (.elem c.node.toList (attrsOf c.fields vs) (textOf c.fields vs) (writeSlots classes c.slots ks))) := by
      rw [read_eq, write, row_of hc]
    rw [Obj.cls, hread]
    refine ⟨?_, ?_⟩
    · rw [write, write, row_of hc, hfields.1, hfields.2, hslots.1]
    · intro hs
      rw [skipped, row_of hc] at hs ⊢
      unfold skipOk at hskok
      have hget := fun i f v hi hv => get_written c.node.toList (writeSlots classes c.slots ks) c.fields vs i f v hdi hi hv
      have hclose := fields_back F c.fields vs c.node.toList (writeSlots classes c.slots ks) hstr hdi hv
      cases hskip : c.skip with
      | never => rfl
      | noChildren =>
        rw [hskip] at hs
        simp only [Skip.test] at hs ⊢
        rw [last_empty (b := ks)]
        · exact hs
        · rw [List.map_map]; exact hslots.2
      | identity =>
        rw [hskip] at hskok hs
        simp only [Bool.and_eq_true] at hskok
        obtain ⟨f, hfe, hcod, hini⟩ := fields_one hskok.1
        have hlen := keptAll_length hv
        rw [hfe] at hlen
        obtain ⟨v, rfl⟩ : ∃ v, vs = [v] := List.length_eq_one_iff.1 hlen
        have hkv : Kept .matrix v := by
          have := hv
          rw [hfe, KeptAll, hcod] at this
          exact this.1
        cases v <;> simp only [Kept] at hkv
        rename_i m
        simp only [Skip.test] at hs
        have hg0 := hget 0 f (.matrix m) (by rw [hfe]; rfl) rfl
        obtain ⟨s1, s2⟩ := hstr f (by rw [hfe]; simp)
        rw [hfe] at hg0 ⊢
        simp only [decAll, List.map_cons, List.map_nil]
        rw [s1, s2, hg0, hcod]
        simp only [enc, dec, Option.getD_some, C19_mvr, result, if_true, Skip.test]
        exact identity_again F hkv (hmod _ (by simp)) hs (hst.matrices _ _ _ (.self _) m (by simp))
      | zero =>
        rw [hskip] at hskok hs
        simp only [Bool.and_eq_true] at hskok
        obtain ⟨f, hfe, hcod, hini⟩ := fields_one hskok.1
        have hlen := keptAll_length hv
        rw [hfe] at hlen
        obtain ⟨v, rfl⟩ : ∃ v, vs = [v] := List.length_eq_one_iff.1 hlen
        rw [hfe] at hclose hv ⊢
        rw [KeptAll, hcod] at hv
        have hv1 := hv.1
        cases v <;> simp only [Kept] at hv1
        rename_i i
        simp only [decAll, List.map_cons, List.map_nil, CloseAll, and_true] at hclose ⊢
        have hclose : Val.int i = _ := hclose
        rw [← hclose]
        exact hs
      | noText =>
        rw [hskip] at hs
        cases vs with
        | nil => 
          have := keptAll_length hv
          have hnil : c.fields = [] := List.length_eq_zero_iff.1 this.symm
          rw [hnil]; rfl
        | cons v vs =>
          cases hfe : c.fields with
          | nil => rfl
          | cons f fs =>
            rw [hfe] at hclose
            simp only [decAll, List.map_cons, CloseAll] at hclose ⊢
            rcases close_eq hclose.1 with e | ⟨x, rfl⟩ | ⟨x, rfl⟩ | ⟨x, rfl⟩ | ⟨x, rfl⟩ | ⟨a, b, x, rfl⟩
            · rw [← e]; cases v <;> exact hs
            all_goals
              have hc1 := hclose.1
              revert hc1
              generalize dec F f.rcodec f.init _ = w
              intro hc1
              cases w <;> first | rfl | exact absurd hc1 (by simp [Close])

/-- **C94.** An object that is saved, read and saved again is saved as the same nodes with the same texts. -/
theorem C94_same_partial (F : Fl) (o : Obj) (h : Build o) (hs : Steady o) :
    write classes (read classes F o.cls (write classes o)) = write classes o := (inner_again F o (build_tree h) hs).1

/-- **C94, files.** The bytes of the second file are those of the first. -/
theorem C94_file_partial (F : Fl) (o : Obj) (h : Build o) (hs : Steady o) (hc : TidyTree o) (hl : Xml.Spec.levels (write classes o) ≤ 98) :
    ∃ x, Xml.readBuffer (Xml.writeXmlText (write classes o)) = some x ∧
      Xml.writeXmlText (write classes (read classes F o.cls x)) = Xml.writeXmlText (write classes o) := by
  refine ⟨write classes o, ?_, by rw [C94_same_partial F o h hs]⟩
  rw [Xml.read_tree _ (write_plain o (build_tree h) (build_clean h hc)), if_pos hl]

/-- **C94, foreign scenes.** The same for a scene that was read from the description of any program: what the library saves is what it saves after
reading that again. -/
theorem C94_read_partial (F : Fl) (e : Xml) (hn : e.name = "GeneralSceneDescription".toList) (h : Sane e)
    (hs : Steady (read classes F "SceneDataExchange" e)) :
    ∃ x, save classes (read classes F "SceneDataExchange" e) = some x ∧ write classes (read classes F "SceneDataExchange" x) = x := by
  have hk : ∃ k ∈ kinds, k.cls = "SceneDataExchange" ∧ (row classes k.cls).node = "GeneralSceneDescription" := by decide +kernel
  obtain ⟨k, hk, hc, hr⟩ := hk
  have hb := read_build F _ e (Nat.le_refl _) h k hk (by rw [hr]; unfold Called; rw [hn])
  rw [hc] at hb
  have hcls : (read classes F "SceneDataExchange" e).cls = "SceneDataExchange" := by rw [read_eq]; rfl
  have h1 := C94_same_partial F _ hb hs
  rw [hcls] at h1
  exact ⟨_, by unfold save; rw [build_saved hb]; rfl, h1⟩

/-! ### An instance -/

instance (x : Dbl) : Decidable (Moderate x) := by unfold Moderate; infer_instance

instance (v : V3) : Decidable (ModerateV v) := by unfold ModerateV; infer_instance

instance (v : Val) : Decidable (ModerateVal v) := by
  cases v <;> unfold ModerateVal <;> infer_instance

instance (m : Mat) : Decidable (Almost m) := by unfold Almost Shows; infer_instance

/-- The value is not too large, and no matrix that is almost the identity. -/
def steadyVal (v : Val) : Bool :=
  decide (ModerateVal v) && match v with
    | .matrix m => !decide (Almost m)
    | _ => true

mutual
/-- A check for `Steady`. -/
def steadyB : Obj → Bool
  | .mk c vs ks => vs.all steadyVal && !decide (EmptyGroup (.mk c vs ks)) && steadyKids ks

/-- All members. -/
def steadyKids : List (List Obj) → Bool
  | [] => true
  | k :: ks => steadyList k && steadyKids ks

/-- One member. -/
def steadyList : List Obj → Bool
  | [] => true
  | o :: os => steadyB o && steadyList os
end

theorem steadyList_mem : ∀ {k : List Obj}, steadyList k = true → ∀ o ∈ k, steadyB o = true
  | [], _, _, h => by cases h
  | a :: k, h, o, ho => by
    rw [steadyList, Bool.and_eq_true] at h
    rcases List.mem_cons.1 ho with rfl | ho
    · exact h.1
    · exact steadyList_mem h.2 o ho

theorem steadyKids_mem : ∀ {ks : List (List Obj)}, steadyKids ks = true → ∀ k ∈ ks, steadyList k = true
  | [], _, _, h => by cases h
  | a :: ks, h, k, hk => by
    rw [steadyKids, Bool.and_eq_true] at h
    rcases List.mem_cons.1 hk with rfl | hk
    · exact h.1
    · exact steadyKids_mem h.2 k hk

theorem steady_within {x o : Obj} (h : Within x o) : steadyB o = true → steadyB x = true := by
  induction h with
  | self => exact id
  | inside o c vs ks k hk ho h ih =>
    intro hs
    rw [steadyB, Bool.and_eq_true] at hs
    exact ih (steadyList_mem (steadyKids_mem hs.2 k hk) o ho)

theorem steadyB_sound {o : Obj} (h : steadyB o = true) : Steady o := by
  have hv : ∀ c vs ks, Within (.mk c vs ks) o → (∀ v ∈ vs, steadyVal v = true) ∧ ¬ EmptyGroup (.mk c vs ks) := by
    intro c vs ks hw
    have := steady_within hw h
    rw [steadyB] at this
    simp only [Bool.and_eq_true, List.all_eq_true, Bool.not_eq_true', decide_eq_false_iff_not] at this
    exact this.1
  refine ⟨?_, ?_, ?_⟩
  · intro c vs ks hw v hm
    have := (hv c vs ks hw).1 v hm
    unfold steadyVal at this
    rw [Bool.and_eq_true] at this
    exact of_decide_eq_true this.1
  · intro c vs ks hw m hm
    have := (hv c vs ks hw).1 _ hm
    unfold steadyVal at this
    rw [Bool.and_eq_true] at this
    simpa using this.2
  · intro x hw
    cases x with
    | mk c vs ks => exact (hv c vs ks hw).2

/-- A layer with a group and a fixture in it. -/
def rig : Obj :=
  .mk "SceneDataLayerObj" [.uuid (List.replicate 16 1), .text "Layer 1".toList] (plainMembers .identity ++
    [[.mk "SceneDataGroupObj" [.uuid (List.replicate 16 3), .text "Rig".toList]
      (plainMembers moved ++ [[fixture "gobo.png".toList ⟨false, 90⟩ 5 101 "Dimmer".toList true]])]])

/-- The hypotheses of C94 are met. -/
example (F : Fl) : write classes (read classes F "SceneDataLayerObj" (write classes rig)) = write classes rig :=
  C94_same_partial F rig (buildB_sound _ (by decide +kernel)) (steadyB_sound (by decide +kernel))

/-! ### What does not hold -/

theorem shown_exact (F : Fl) {x : Dbl} {t : Int} (h : millionths x = t) (ht : t = 0 ∨ t = 1000000) : signed (atof F (printReal x)) = (t : ℚ) / 1000000 := by
  rw [atof_print]
  have e0 := F.exact 0 0 (by norm_num)
  have e1 := F.exact 1 0 (by norm_num)
  norm_num at e0 e1
  unfold millionths at h
  unfold signed
  cases hn : x.neg with
  | false =>
    rw [hn] at h
    simp only [Bool.false_eq_true, if_false] at h ⊢
    rcases ht with rfl | rfl
    · rw [show micro x = 0 by omega]; simp [e0]
    · rw [show micro x = 1000000 by omega]; norm_num [e1]
  | true =>
    rw [hn] at h
    simp only [if_true] at h ⊢
    rcases ht with rfl | rfl
    · rw [show micro x = 0 by omega]; simp [e0]
    · omega

/-- **C94, violated.** The matrix of an object that is almost the identity, as after a rotation by a full turn, is saved; what is read from the file is
exactly the identity, and is left out when the scene is saved the next time. -/
theorem C94_matrix_violated (F : Fl) (m : Mat) (ha : Almost m) :
    skipped classes (.mk "fMatrix" [.matrix m] []) = false ∧
      skipped classes (read classes F "fMatrix" (write classes (.mk "fMatrix" [.matrix m] []))) = true := by
  obtain ⟨hi, ⟨a1, a2, a3⟩, ⟨b1, b2, b3⟩, ⟨c1, c2, c3⟩, d1, d2, d3⟩ := ha
  have hrow : row classes "fMatrix" = ⟨"fMatrix", "Matrix", [⟨"fMatrix", .own, .matrix, .own, .matrix, .matrix .identity⟩], [], .identity⟩ := by
    decide +kernel
  refine ⟨by rw [skipped, hrow]; exact hi, ?_⟩
  rw [read_eq, write, skipped, hrow]
  simp only [decAll, List.map_cons, List.map_nil, Place.get, textOf, enc, Scene.Xml.text, dec, C19_mvr, result, if_true, Skip.test]
  have z0 : signed zero = 0 := by simp [signed, zero]
  have z1 : signed one = 1 := by simp [signed, one]
  have s0 : ∀ {x : Dbl}, millionths x = 0 → signed (reread F x) = 0 := fun h => by
    have := shown_exact F h (.inl rfl)
    simpa [reread] using this
  have s1 : ∀ {x : Dbl}, millionths x = 1000000 → signed (reread F x) = 1 := fun h => by
    have := shown_exact F h (.inr rfl)
    norm_num at this
    exact this
  unfold isIdentity isOrigin pointEq
  simp only [Mat.map, Mat.mapV, z0, z1, s0 a2, s0 a3, s0 b1, s0 b3, s0 c1, s0 c2, s0 d1, s0 d2, s0 d3, s1 a1, s1 b2, s1 c3]
  norm_num

/-- A matrix moved by a hundred millionth of a millimetre. -/
example (F : Fl) : ∃ m : Mat, skipped classes (.mk "fMatrix" [.matrix m] []) = false ∧
    skipped classes (read classes F "fMatrix" (write classes (.mk "fMatrix" [.matrix m] []))) = true :=
  ⟨⟨⟨one, zero, zero⟩, ⟨zero, one, zero⟩, ⟨zero, zero, one⟩, ⟨⟨false, 1 / 100000000⟩, zero, zero⟩⟩, C94_matrix_violated F _ (by decide +kernel)⟩

end Verif.Mvr
