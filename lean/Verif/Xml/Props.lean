import Verif.Xml.Tree
import Verif.Xml.Cut
import Verif.Xml.Sound
import Verif.Xml.Decode

/-!
# C57, C58, C59: XML text written and read with the tinyxml2 back-end
-/

namespace Verif.Xml

open Spec

/-! ### C57: what is written can be read back -/

/-- A small tree: an element with an attribute, a text with special characters, an empty element. -/
def demo : Scene.Xml :=
  .elem "Node".toList [("Name".toList, "a\"<&>'b".toList)] []
    [.elem "Text".toList [] "x < y & z".toList [], .elem "Empty".toList [] [] []]

theorem demo_plain : Plain demo := by
  have n1 : Name "Node".toList := nameOk _ _ rfl (by decide) (by decide)
  have n2 : Name "Name".toList := nameOk _ _ rfl (by decide) (by decide)
  have n3 : Name "Text".toList := nameOk _ _ rfl (by decide) (by decide)
  have n4 : Name "Empty".toList := nameOk _ _ rfl (by decide) (by decide)
  refine ⟨n1, ?_, by decide, by decide, Or.inl rfl,
    ⟨n3, by simp, by decide, by decide, Or.inr (by decide), trivial⟩,
    ⟨n4, by simp, by decide, by decide, Or.inl rfl, trivial⟩, trivial⟩
  intro x hx
  rw [List.mem_singleton] at hx
  subst hx
  exact ⟨n2, by decide⟩

/-- **C57** exactly: which document is read from the text written for a tree of elements and texts. Blank texts
are gone, line ends are line feeds, and 99 elements with content inside of each other cannot be read. -/
theorem C57_exact (n : Str) (a : List (Str × Str)) (k : List Node) (h : Valid (.elem n a k)) :
    parseDoc (writeBuffer ⟨false, [.elem n a k]⟩) =
      if height (.elem n a k) ≤ 98 then some ⟨false, .decl header :: kept (.elem n a k)⟩ else none :=
  read_write h

example : parseDoc (writeXmlText demo) = some ⟨false, .decl header :: kept (ofXml demo)⟩ := by
  have h := C57_exact _ _ _ (ofXml_valid demo demo_plain)
  rw [if_pos (by decide)] at h
  exact h

/-- **C57** for the trees built with the API, whose texts and attribute values are arbitrary except for carriage
returns, NULs and texts of white space only: what is read is what was written, if no more than 98 elements with
content are inside of each other, else nothing can be read. What is missing for the full property: the three
exceptions below. -/
theorem C57_partial (x : Scene.Xml) (h : Plain x) :
    readBuffer (writeXmlText x) = if levels x ≤ 98 then some x else none :=
  read_tree x h

example : readBuffer (writeXmlText demo) = some demo := by
  rw [C57_partial demo demo_plain, if_pos (by decide)]

theorem plain_one {n t : Str} {k : List Scene.Xml} (hn : Name n) (ht : Clean t) (hb : t = [] ∨ ¬ Blank t)
    (hk : Plains k) : Plain (.elem n [] t k) := by
  rw [Plain]; exact ⟨hn, by simp, by simp, ht, hb, hk⟩

/-- `d + 1` elements inside of each other. -/
def chain : Nat → Scene.Xml
  | 0 => .elem ['a'] [] [] []
  | d + 1 => .elem ['a'] [] [] [chain d]

theorem name_a : Name ['a'] := nameOk _ _ rfl (by decide) (by decide)

theorem chain_plain : ∀ d, Plain (chain d)
  | 0 => plain_one name_a (by decide) (Or.inl rfl) trivial
  | d + 1 => plain_one name_a (by decide) (Or.inl rfl) ⟨chain_plain d, trivial⟩

theorem chain_levels : ∀ d, levels (chain d) = d
  | 0 => rfl
  | d + 1 => by
    rw [chain, levels, if_neg (by simp), levelsAll, chain_levels d, levelsAll]; omega

/-- **C57 is violated** by deep trees: every chain of more than 98 elements with content is written without an
error, and the text cannot be read. -/
theorem C57_depth_violated (d : Nat) (h : 98 < d) :
    Plain (chain d) ∧ readBuffer (writeXmlText (chain d)) = none := by
  refine ⟨chain_plain d, ?_⟩
  rw [C57_partial _ (chain_plain d), chain_levels, if_neg (by omega)]

/-- **C57 is violated** by texts of white space only: they come back empty. -/
theorem C57_blank_violated (t : Str) (h0 : t ≠ []) (hb : Blank t) :
    readBuffer (writeXmlText (.elem ['a'] [] t [])) = some (.elem ['a'] [] [] []) := by
  have hn : '\x00' ∉ t := by
    intro hm
    exact absurd (hb _ hm) (by decide)
  have hv : Valid (.elem ['a'] [] [.text t]) := by
    rw [Valid]
    exact ⟨name_a, by simp, by simp, by simp [Adjacent], ⟨hn, trivial⟩⟩
  unfold readBuffer writeXmlText
  rw [ofXml, ofXmls, if_neg h0, List.append_nil, C57_exact _ _ _ hv]
  rw [if_pos (by simp [height, heights])]
  simp [kept, keptAll, hb, viewList, view, getText]

example : readBuffer (writeXmlText (.elem ['a'] [] "  ".toList [])) = some (.elem ['a'] [] [] []) :=
  C57_blank_violated _ (by decide) (by decide)

/-- **C57 is violated** by carriage returns: in an attribute value each line end becomes a single line feed. -/
theorem C57_cr_violated (v : Str) (h : '\x00' ∉ v) :
    readBuffer (writeXmlText (.elem ['a'] [(['a'], v)] [] [])) = some (.elem ['a'] [(['a'], newlines v)] [] []) := by
  have hv : Valid (.elem ['a'] [(['a'], v)] []) := by
    rw [Valid]
    exact ⟨name_a, by simpa using ⟨name_a, h⟩, by simp, by simp [Adjacent], trivial⟩
  unfold readBuffer writeXmlText
  rw [ofXml, ofXmls, if_pos rfl, List.append_nil, C57_exact _ _ _ hv]
  rw [if_pos (by simp [height])]
  simp [kept, keptAll, viewList, view, getText]

example : readBuffer (writeXmlText (.elem ['a'] [(['a'], "1\r\n2\r3".toList)] [] [])) =
    some (.elem ['a'] [(['a'], "1\n2\n3".toList)] [] []) :=
  C57_cr_violated _ (by decide)

/-! ### C58: malformed texts -/

/-- **C58**, cut-off files: no proper prefix of a text that the library has written is read as a document. The
tree can be any tree of elements and texts, so also one that is too deep to be read as a whole. -/
theorem C58_truncated (n : Str) (a : List (Str × Str)) (k : List Node) (h : Valid (.elem n a k)) (P Q : Str)
    (hs : writeBuffer ⟨false, [.elem n a k]⟩ = P ++ Q) (hq : Q ≠ []) : readBuffer P = none :=
  cut_none h hs hq

example : readBuffer ((writeXmlText demo).take 50) = none :=
  C58_truncated _ _ _ (ofXml_valid demo demo_plain) _ ((writeXmlText demo).drop 50)
    (List.take_append_drop 50 (writeXmlText demo)).symm (by decide)

/-- **C58**, accepted texts: if a buffer is read, the text (up to the first NUL) is a sequence of nodes as in
`Items` and the nodes of the document are these nodes: tags and their end tags match and are nested, attribute
names are distinct, everything opened is closed. What is missing for the full property: the nodes can be followed
by an end tag and arbitrary text (`C58_stray_violated`), and `Items` is more lenient than XML
(`C58_empty_end_violated`). -/
theorem C58_partial (s : Str) (doc : Doc) (h : parseDoc s = some doc) :
    ∃ w b rest, Blank w ∧ Items doc.nodes b ∧ (rest = [] ∨ ∃ n c r, EndTag n c ∧ rest = c ++ r) ∧
      s.takeWhile (fun c => c ≠ '\x00') = w ++ ((if doc.bom then bomText else []) ++ (b ++ rest)) :=
  parseDoc_sound h

example : ∃ doc, parseDoc (writeXmlText demo) = some doc := by
  have h := C57_exact _ _ _ (ofXml_valid demo demo_plain)
  rw [if_pos (by decide)] at h
  exact ⟨_, h⟩

/-- **C58**, values: an attribute value or text that is written as XML demands is decoded as XML demands: the
entities, decimal and hexadecimal character references of all code points except 0, line ends. -/
theorem C58_values (raw v : Str) (h : Decoded raw v) : getStr true raw = v :=
  getStr_decoded h

example : getStr true "a&lt;&#x41;&#0066;\r\n".toList = "a<AB\n".toList := by
  have d : ∀ c n, c.toNat = '0'.toNat + n → '0' ≤ c → c ≤ '9' → ∀ hex, Digit hex c n :=
    fun c n h1 h2 h3 hex => Or.inl ⟨h2, h3, h1⟩
  have h1 : Numeral true "41".toList 0x41 :=
    .more (s := "4".toList) (v := 4) (.one (d _ _ rfl (by decide) (by decide) _)) (d _ 1 rfl (by decide) (by decide) _)
  have h2 : Numeral false "0066".toList 66 :=
    .more (s := "006".toList) (v := 6) (.more (s := "00".toList) (v := 0) (.more (s := "0".toList) (v := 0)
      (.one (d _ _ rfl (by decide) (by decide) _)) (d _ 0 rfl (by decide) (by decide) _))
      (d _ 6 rfl (by decide) (by decide) _)) (d _ 6 rfl (by decide) (by decide) _)
  exact C58_values _ _ (.plain (by decide) (by decide) (by decide) (by decide)
    (.entity (n := "lt") (Or.inl ⟨rfl, rfl⟩)
      (.hex h1 (by decide) ⟨by decide, by decide⟩ (.dec h2 (by decide) ⟨by decide, by decide⟩ (.crlf .nil)))))

theorem getStr_plain {v : Str} (h : ∀ c ∈ v, c ≠ '&' ∧ c ≠ '\r' ∧ c ≠ '\n' ∧ c ≠ '\x00') : getStr true v = v := by
  apply getStr_decoded
  induction v with
  | nil => exact .nil
  | cons c v ih =>
    obtain ⟨h1, h2, h3, h4⟩ := h c (by simp)
    exact .plain h1 h2 h3 h4 (ih (fun d hd => h d (by simp [hd])))

/-- Running the parser on a text that starts with a tag. -/
theorem parseDoc_run {r : Str} (h : '\x00' ∉ r) {o : Out} (hp : Parses true 1 [] ('<' :: r) o) :
    parseDoc ('<' :: r) = match o with
      | .eof nodes => some ⟨false, nodes⟩
      | .close _ nodes _ => some ⟨false, nodes⟩
      | .err => none := by
  have h2 := hp.run
  have hc : ('<' :: r).takeWhile (fun c => c ≠ '\x00') = '<' :: r := by
    apply takeWhile_nul
    simpa using h
  have hs : skipWs ('<' :: r) = '<' :: r := skipWs_cons (by decide) _
  have hb : bomText.isPrefixOf ('<' :: r) = false := rfl
  unfold parseDoc
  simp only [hc, hs, hb, Bool.false_eq_true, if_false]
  rw [h2, if_neg (by simp)]
  cases o <;> rfl

/-- **C58**, end tags: an element whose end tag has another name is reported, whatever stands inside of it
(without a `<`) and behind it. -/
theorem C58_mismatch (n m t r : Str) (hn : Name n) (hm : Name m) (h : n ≠ m) (ht : '<' ∉ t)
    (h0 : '\x00' ∉ t ++ r) :
    parseDoc ("<".toList ++ n ++ ">".toList ++ t ++ "</".toList ++ m ++ ">".toList ++ r) = none := by
  rw [List.mem_append, not_or] at h0
  have e : "<".toList ++ n ++ ">".toList ++ t ++ "</".toList ++ m ++ ">".toList ++ r =
      '<' :: (tagText n [] ++ (['>'] ++ (t ++ '<' :: '/' :: (m ++ '>' :: r)))) := by simp [tagText]
  have h1 : Name n := hn
  obtain ⟨⟨c, n', rfl, hc⟩, hn⟩ := hn
  have hid : identify ('<' :: (tagText (c :: n') [] ++ (['>'] ++ (t ++ '<' :: '/' :: (m ++ '>' :: r))))) =
      .elem (tagText (c :: n') [] ++ (['>'] ++ (t ++ '<' :: '/' :: (m ++ '>' :: r)))) := by
    apply identify_elem
    · rintro rfl; revert hc; simp only [NameStart]; decide
    · rintro rfl; revert hc; simp only [NameStart]; decide
  have hend : ∀ acc, Parses false 2 acc ('<' :: '/' :: (m ++ '>' :: r)) (.close m acc r) := fun acc =>
    parses_close (identify_elem (by decide) (by decide) _) (parseTag_close hm r)
  have hin : ∃ k, Parses false 2 [] (t ++ '<' :: '/' :: (m ++ '>' :: r)) (.close m k r) := by
    by_cases hb : Blank t
    · exact ⟨_, parses_skip (fun x hx => (isSpace_iff x).2 (hb x hx)) (hend [])⟩
    · have hx : ∃ c ∈ t, isSpace c = false := by
        simp only [Blank, Classical.not_forall] at hb
        obtain ⟨x, hx, hs⟩ := hb
        refine ⟨x, hx, ?_⟩
        cases hh : isSpace x
        · rfl
        · exact absurd ((isSpace_iff x).1 hh) hs
      refine ⟨_, parses_leaf (n := .text (getStr true t)) (rest := '<' :: '/' :: (m ++ '>' :: r)) ?_ rfl (hend _)⟩
      rw [identify_text ht hx, parseLeaf]
      have := parseText_single ht ('/' :: (m ++ '>' :: r))
      rw [show "<".toList = ['<'] from rfl, this]
      simp
  obtain ⟨k, hk⟩ := hin
  have hp : Parses true 1 [] ('<' :: (tagText (c :: n') [] ++ (['>'] ++ (t ++ '<' :: '/' :: (m ++ '>' :: r))))) .err := by
    obtain ⟨g, hg⟩ := hk
    refine ⟨g + 1, ?_⟩
    rw [parseNodes, hid]
    simp only [parseTag_text (n := c :: n') (a := []) ⟨h1, by simp, by simp⟩ ['>'] _ .opened (Or.inl ⟨rfl, rfl⟩)]
    rw [if_neg (by simp), if_neg (by decide), hg]
    simp only
    rw [if_neg (fun e => h e.symm)]
  rw [e, parseDoc_run ?_ hp]
  have g1 := name_nul h1
  have g2 := name_nul hm
  simp only [tagText, List.flatMap_nil, List.append_nil, List.mem_append, List.mem_cons, not_or]
  simp only [List.mem_cons, not_or] at g1
  refine ⟨g1, ⟨by decide, by simp⟩, h0.1, by decide, by decide, g2, by decide, h0.2⟩

example : parseDoc "<Layer>x</Layers>".toList = none :=
  C58_mismatch "Layer".toList "Layers".toList "x".toList [] (nameOk _ _ rfl (by decide) (by decide))
    (nameOk _ _ rfl (by decide) (by decide)) (by decide) (by decide) (by decide)

theorem tag_a : TagOk ['a'] [] := ⟨name_a, by simp, by simp⟩

/-- **C58 is violated** by a stray end tag: it ends the document without an error, and everything behind it is
ignored. -/
theorem C58_stray_violated (r : Str) (h : '\x00' ∉ r) :
    parseDoc ("<a/></b>".toList ++ r) = some ⟨false, [.elem ['a'] [] []]⟩ := by
  have hp : Parses true 1 [] ('<' :: (tagText ['a'] [] ++ (['/', '>'] ++ ('<' :: '/' :: (['b'] ++ '>' :: r)))))
      (.close ['b'] [.elem ['a'] [] []] r) :=
    parses_closed (identify_elem (by decide) (by decide) _)
      (parseTag_text tag_a ['/', '>'] _ .closed (Or.inr ⟨rfl, rfl⟩))
      (parses_close (identify_elem (by decide) (by decide) _)
        (parseTag_close (nameOk _ _ rfl (by decide) (by decide)) r))
  exact parseDoc_run (by simpa [tagText] using h) hp

example : parseDoc "<a/></b> <c> & <<<".toList = some ⟨false, [.elem ['a'] [] []]⟩ :=
  C58_stray_violated " <c> & <<<".toList (by decide)

/-- **C58 is violated** by `</a/>`: an end tag that closes itself is read as an empty element. -/
theorem C58_empty_end_violated : parseDoc "</a/>".toList = some ⟨false, [.elem ['a'] [] []]⟩ := by
  have ht : parseTag "/a/>".toList = some (.closed, ['a'], [], []) := by
    unfold parseTag
    rw [show skipWs "/a/>".toList = ['/', 'a', '/', '>'] from rfl]
    simp only [List.head?_cons, if_true, List.drop_succ_cons, List.drop_zero]
    have : parseName ['a', '/', '>'] = some (['a'], ['/', '>']) := by decide
    rw [this, Option.bind_some, parseAttrs_eq]
    rfl
  exact parseDoc_run (r := "/a/>".toList) (by decide)
    (parses_closed (identify_elem (by decide) (by decide) _) ht (parses_eof rfl))

/-- **C58 is violated** by unknown entities: they are not reported; the byte in place of the `&` is whatever was
at this place of the buffer. -/
theorem C58_entity_violated : getStr true "&quot;&foo;x".toList = "\"qfoo;x".toList := by
  simp [getStr, getStrLoop, entityAt, entities, List.isPrefixOf]

/-! ### The byte order mark -/

theorem sealTag_out (s : Printer) : ∃ t, (sealTag s).out = s.out ++ t := by
  unfold sealTag; split
  · exact ⟨_, rfl⟩
  · exact ⟨[], by simp⟩

theorem prepare_out (s : Printer) : ∃ t, (prepare s).out = s.out ++ t := by
  obtain ⟨t, ht⟩ := sealTag_out s
  unfold prepare
  exact ⟨t ++ _, by dsimp only; rw [ht, List.append_assoc]⟩

mutual
theorem printNode_out : ∀ (x : Node) (s : Printer), ∃ t, (printNode s x).out = s.out ++ t
  | .elem n a k, s => by
    obtain ⟨t1, h1⟩ := prepare_out s
    obtain ⟨t2, h2⟩ := printNodes_out k (openElement s n a)
    obtain ⟨t3, h3⟩ : ∃ t, (openElement s n a).out = s.out ++ t := by
      refine ⟨t1 ++ ('<' :: n ++ a.flatMap attrText), ?_⟩
      rw [openElement]
      dsimp only
      rw [h1, List.append_assoc, List.append_assoc]
    rw [h3] at h2
    rw [printNode, closeElement]
    dsimp only
    rw [h2, List.append_assoc, List.append_assoc, List.append_assoc]
    exact ⟨_, rfl⟩
  | .text v, s => by
    obtain ⟨t, h⟩ := sealTag_out { s with textDepth := if s.depth = 0 then none else some (s.depth - 1) }
    exact ⟨t ++ _, by rw [printNode, pushText]; dsimp only; rw [h, List.append_assoc]⟩
  | .cdata v, s => by
    obtain ⟨t, h⟩ := sealTag_out { s with textDepth := if s.depth = 0 then none else some (s.depth - 1) }
    exact ⟨t ++ _, by rw [printNode, pushText]; dsimp only; rw [h, List.append_assoc]⟩
  | .comment v, s => by
    obtain ⟨t, h⟩ := prepare_out s
    exact ⟨t ++ _, by rw [printNode, pushMarkup]; dsimp only; rw [h, List.append_assoc]⟩
  | .decl v, s => by
    obtain ⟨t, h⟩ := prepare_out s
    exact ⟨t ++ _, by rw [printNode, pushMarkup]; dsimp only; rw [h, List.append_assoc]⟩
  | .unknown v, s => by
    obtain ⟨t, h⟩ := prepare_out s
    exact ⟨t ++ _, by rw [printNode, pushMarkup]; dsimp only; rw [h, List.append_assoc]⟩
theorem printNodes_out : ∀ (k : List Node) (s : Printer), ∃ t, (printNodes s k).out = s.out ++ t
  | [], s => ⟨[], by rw [printNodes, List.append_nil]⟩
  | x :: r, s => by
    obtain ⟨t1, h1⟩ := printNode_out x s
    obtain ⟨t2, h2⟩ := printNodes_out r (printNode s x)
    exact ⟨t1 ++ t2, by rw [printNodes, h2, h1, List.append_assoc]⟩
end

/-- **C57 is violated** by documents with a byte order mark: if such a file starts with a declaration, as the
files of this library do, the text written for the document that was read cannot be read. The mark is written
behind the first declaration. -/
theorem C57_bom_violated (v : Str) (k : List Node) : parseDoc (writeBuffer ⟨true, .decl v :: k⟩) = none := by
  have hw : ∃ X, writeBuffer ⟨true, .decl v :: k⟩ = declText ++ (bomText ++ '\n' :: '<' :: '?' :: X) := by
    have h0 : pushMarkup {} ("<?".toList ++ header ++ "?>".toList) = { first := false, out := declText } := rfl
    obtain ⟨t, ht⟩ := printNodes_out k (printNode { first := false, out := declText ++ bomText } (.decl v))
    unfold writeBuffer
    rw [h0]
    simp only [if_true]
    rw [printNodes, ht, printNode, pushMarkup, prepare, sealTag]
    simp only [Bool.false_eq_true, if_false, if_true, spaces]
    refine ⟨(v ++ "?>".toList ++ t).dropLast, ?_⟩
    have e : declText ++ bomText ++ '\n' :: List.replicate (4 * 0) ' ' ++ ("<?".toList ++ v ++ "?>".toList) ++ t =
        (declText ++ (bomText ++ ['\n', '<', '?'])) ++ (v ++ "?>".toList ++ t) := by simp
    rw [e, List.dropLast_append_of_ne_nil (by simp)]
    simp
  obtain ⟨X, hX⟩ := hw
  rw [hX]
  have hcut : (declText ++ (bomText ++ '\n' :: '<' :: '?' :: X)).takeWhile (fun c => c ≠ '\x00') =
      declText ++ (bomText ++ '\n' :: '<' :: '?' :: X.takeWhile (fun c => c ≠ '\x00')) := rfl
  have hrun := parseDoc_decl (r := bomText ++ '\n' :: '<' :: '?' :: X.takeWhile (fun c => c ≠ '\x00')) (by
    have hx : '\x00' ∉ X.takeWhile (fun c => c ≠ '\x00') := by
      intro hm
      have := List.all_eq_true.1 List.all_takeWhile _ hm
      simp at this
    have hb : '\x00' ∉ bomText ++ ['\n', '<', '?'] := by decide
    intro hm
    rw [show bomText ++ '\n' :: '<' :: '?' :: X.takeWhile (fun c => c ≠ '\x00') =
      (bomText ++ ['\n', '<', '?']) ++ X.takeWhile (fun c => c ≠ '\x00') by simp, List.mem_append] at hm
    exact hm.elim hb hx)
  have heq : parseDoc (declText ++ (bomText ++ '\n' :: '<' :: '?' :: X)) =
      parseDoc (declText ++ (bomText ++ '\n' :: '<' :: '?' :: X.takeWhile (fun c => c ≠ '\x00'))) := by
    have h2 : (declText ++ (bomText ++ '\n' :: '<' :: '?' :: X.takeWhile (fun c => c ≠ '\x00'))).takeWhile (fun c => c ≠ '\x00') =
      declText ++ (bomText ++ '\n' :: '<' :: '?' :: X.takeWhile (fun c => c ≠ '\x00')) := by
      have : (X.takeWhile (fun c => decide (c ≠ '\x00'))).takeWhile (fun c => decide (c ≠ '\x00')) = X.takeWhile (fun c => decide (c ≠ '\x00')) := by
        apply takeWhile_nul
        intro hm
        have := List.all_eq_true.1 List.all_takeWhile _ hm
        simp at this
      rw [show (declText ++ (bomText ++ '\n' :: '<' :: '?' :: X.takeWhile (fun c => c ≠ '\x00'))).takeWhile (fun c => c ≠ '\x00') =
        declText ++ (bomText ++ '\n' :: '<' :: '?' :: (X.takeWhile (fun c => c ≠ '\x00')).takeWhile (fun c => c ≠ '\x00')) from rfl, this]
    unfold parseDoc
    simp only [hcut, h2]
  rw [heq, hrun]
  generalize X.takeWhile (fun c => c ≠ '\x00') = Y
  have hp : Parses true 1 [.decl header] (bomText ++ '\n' :: '<' :: '?' :: Y) .err := by
    have ht : parseLeaf (identify (bomText ++ '\n' :: '<' :: '?' :: Y)) =
        some (.text (getStr true (bomText ++ ['\n'])), '<' :: '?' :: Y) := by
      have := identify_text (s := bomText ++ ['\n']) (by decide) (by decide) ('<' :: '?' :: Y)
      rw [show bomText ++ '\n' :: '<' :: '?' :: Y = (bomText ++ ['\n']) ++ ('<' :: '?' :: Y) by simp, this, parseLeaf]
      have h3 := parseText_single (q := '<') (s := bomText ++ ['\n']) (by decide) ('?' :: Y)
      rw [show "<".toList = ['<'] from rfl, h3]
      simp
    refine parses_leaf ht rfl ?_
    have hi : identify ('<' :: '?' :: Y) = .decl Y := by
      unfold identify
      rw [skipWs_cons (by decide)]
      simp
    refine ⟨1, ?_⟩
    rw [parseNodes, hi]
    simp only
    cases hl : parseLeaf (.decl Y) with
    | none => rfl
    | some x =>
      simp only [parseLeaf, Option.map_eq_some_iff] at hl
      obtain ⟨y, -, rfl⟩ := hl
      rfl
  rw [hp.run]

/-- A document with a byte order mark and a declaration is a document that is read. -/
example : parseDoc (bomText ++ declText ++ "<a/>".toList) = some ⟨true, [.decl header, .elem ['a'] [] []]⟩ := by
  have h1 : (bomText ++ declText ++ "<a/>".toList).takeWhile (fun c => c ≠ '\x00') = bomText ++ declText ++ "<a/>".toList := rfl
  have hp : Parses true 1 [] (declText ++ "<a/>".toList) (.eof [.decl header, .elem ['a'] [] []]) :=
    parses_leaf (parseLeaf_decl _) rfl (parses_closed (identify_elem (by decide) (by decide) _)
      (parseTag_text tag_a ['/', '>'] [] .closed (Or.inr ⟨rfl, rfl⟩)) (parses_eof rfl))
  have h2 := hp.run
  unfold parseDoc
  simp only [h1]
  rw [show skipWs (bomText ++ declText ++ "<a/>".toList) = bomText ++ (declText ++ "<a/>".toList) from rfl]
  rw [show bomText.isPrefixOf (bomText ++ (declText ++ "<a/>".toList)) = true from rfl]
  simp only [if_true]
  rw [show (bomText ++ (declText ++ "<a/>".toList)).drop 3 = declText ++ "<a/>".toList from rfl, h2]
  rfl

/-! ### C59: the file of a scene -/

/-- **C59** for scenes with up to 46 objects inside of each other and clean names: the scene read from the XML
text is the scene read from the tree of XML nodes, so the theorems on scenes (C42, C43, C44) hold for the text.
What is missing for the full property: names with carriage returns (`C57_cr_violated`) and deeper scenes
(`C59_depth_violated`); the text is taken as the bytes of the file. -/
theorem C59_partial (s : Scene.Scene) (hc : CleanScene s)
    (hd : ∀ l ∈ s.layers, deeps (Scene.Spec.trees l.kids) ≤ 46) :
    (readBuffer (writeXmlText (Scene.writeXml s))).map Scene.readXml = some (Scene.readXml (Scene.writeXml s)) := by
  have h := levels_writeXml s 46 hd
  rw [C57_partial _ (writeXml_plain s hc), if_pos (by omega)]
  rfl

/-- **C59** together with C42: the tree of objects comes back from the text of the file. -/
theorem C59_tree_partial (s : Scene.Scene) (ht : Scene.Spec.TypedScene s) (hc : CleanScene s)
    (hd : ∀ l ∈ s.layers, deeps (Scene.Spec.trees l.kids) ≤ 46)
    (hg : ∀ l ∈ s.layers, Scene.Spec.NoEmptyGroups (Scene.Spec.trees l.kids)) :
    (readBuffer (writeXmlText (Scene.writeXml s))).map
        (fun x => (Scene.readXml x).scene.layers.map Scene.Spec.layerTree) =
      some (s.layers.map Scene.Spec.layerTree) := by
  have h := levels_writeXml s 46 hd
  rw [C57_partial _ (writeXml_plain s hc), if_pos (by omega), Option.map_some, Scene.C42_partial s ht hg]

theorem demo_clean : CleanScene Scene.demo := by
  simp [CleanScene, Scene.demo, Scene.Spec.trees, Scene.Spec.tree, CleanTrees, CleanTree, Clean]

example : (readBuffer (writeXmlText (Scene.writeXml Scene.demo))).map
    (fun x => (Scene.readXml x).scene.layers.map Scene.Spec.layerTree) =
      some (Scene.demo.layers.map Scene.Spec.layerTree) :=
  C59_tree_partial _ Scene.demo_typed demo_clean
    (by simp [Scene.demo, Scene.Spec.trees, Scene.Spec.tree, deeps, deep])
    (by simp [Scene.demo, Scene.Spec.trees, Scene.Spec.tree, Scene.Spec.NoEmptyGroups, Scene.Spec.NoEmptyGroup])

/-- `d` groups inside of each other, a truss inside of the last one. -/
def nested : Nat → Scene.Obj Scene.Links
  | 0 => .mk .truss (Scene.uid 1) [] none {} []
  | d + 1 => .mk .group (Scene.uid 2) [] none {} [nested d]

/-- A scene with `d` groups inside of each other. -/
def nestedScene (d : Nat) : Scene.Scene :=
  { layers := [{ uuid := Scene.uid 3, name := [], multipatch := none, info := {}, kids := [nested d] }],
    classes := [], positions := [] }

theorem nested_levels : ∀ d, levelsAll (Scene.printObj (nested d)) = 2 * d
  | 0 => rfl
  | d + 1 => by
    have h := nested_levels d
    rw [nested, Scene.printObj, if_neg (by simp)]
    simp only [Scene.classNodes, Scene.fixtureNodes, Scene.childListNode, Scene.printObjs, List.isEmpty_cons, List.append_nil,
      List.nil_append, Bool.not_false, if_true, reduceCtorEq, if_false, levelsAll, levels, h, List.isEmpty_cons,
      Bool.false_eq_true, and_false, true_and]
    cases hk : (Scene.printObj (nested d)).isEmpty with
    | true =>
      have : Scene.printObj (nested d) ≠ [] := by
        cases d <;> simp [nested, Scene.printObj]
      simp only [List.isEmpty_iff] at hk
      exact absurd hk this
    | false => simp only [Bool.false_eq_true, if_false]; omega

/-- **C59 is violated** by every scene with 47 or more groups inside of each other: it is written without an
error, and the file cannot be read. -/
theorem C59_depth_violated (d : Nat) (h : 47 ≤ d) : Scene.Spec.TypedScene (nestedScene d) ∧ CleanScene (nestedScene d) ∧
    readBuffer (writeXmlText (Scene.writeXml (nestedScene d))) = none := by
  have hc : ∀ d, CleanTree (Scene.Spec.tree (nested d)) := by
    intro d
    induction d with
    | zero => simp [nested, Scene.Spec.tree, Scene.Spec.trees, CleanTree, CleanTrees, Clean]
    | succ d ih => simpa [nested, Scene.Spec.tree, Scene.Spec.trees, CleanTree, CleanTrees, Clean] using ih
  have ht : ∀ d, Scene.Spec.Typed (nested d) := by
    intro d
    induction d with
    | zero => simp [nested, Scene.Spec.Typed, Scene.Spec.TypedL, Scene.Spec.LinksOk, Scene.uid]
    | succ d ih => simpa [nested, Scene.Spec.Typed, Scene.Spec.TypedL, Scene.Spec.LinksOk, Scene.uid] using ih
  have hcs : CleanScene (nestedScene d) := by
    simpa [CleanScene, nestedScene, Clean, Scene.Spec.trees, CleanTrees] using hc d
  refine ⟨?_, hcs, ?_⟩
  · simpa [Scene.Spec.TypedScene, nestedScene, Scene.Spec.TypedL, Scene.Spec.LinksOk, Scene.uid] using ht d
  · rw [C57_partial _ (writeXml_plain _ hcs), if_neg]
    have hl := nested_levels d
    have hne : (Scene.printObj (nested d)).isEmpty = false := by
      cases d <;> simp [nested, Scene.printObj]
    simp only [Scene.writeXml, nestedScene, List.map_cons, List.map_nil, levels, levelsAll, Scene.printLayer,
      Scene.classNodes, Scene.childListNode, Scene.printObjs, List.append_nil, List.nil_append, List.isEmpty_cons,
      Bool.not_false, if_true, Bool.false_eq_true, and_false, if_false, hl, hne]
    omega

mutual
/-- The node without the comments in it, at all depths. -/
def noComments : Node → Node
  | .elem n a k => .elem n a (noCommentsAll k)
  | x => x

/-- The nodes without comments. -/
def noCommentsAll : List Node → List Node
  | [] => []
  | .comment _ :: r => noCommentsAll r
  | x :: r => noComments x :: noCommentsAll r
end

theorem getText_noComments : ∀ k : List Node, getText (noCommentsAll k) = getText k
  | [] => rfl
  | .comment _ :: r => by simpa [noCommentsAll, getText] using getText_noComments r
  | .elem .. :: _ => by simp [noCommentsAll, noComments, getText]
  | .text _ :: _ => by simp [noCommentsAll, noComments, getText]
  | .cdata _ :: _ => by simp [noCommentsAll, noComments, getText]
  | .decl _ :: _ => by simp [noCommentsAll, noComments, getText]
  | .unknown _ :: _ => by simp [noCommentsAll, noComments, getText]

mutual
theorem view_noComments : ∀ x : Node, view (noComments x) = view x
  | .elem n a k => by
    simp only [noComments, view, getText_noComments k, viewList_noComments k]
  | .text _ | .cdata _ | .comment _ | .decl _ | .unknown _ => by simp [noComments]

theorem viewList_noComments : ∀ k : List Node, viewList (noCommentsAll k) = viewList k
  | [] => rfl
  | .comment _ :: r => by simpa [noCommentsAll, viewList, view] using viewList_noComments r
  | .elem n a k :: r => by
    simp only [noCommentsAll, viewList, view_noComments (.elem n a k), viewList_noComments r]
  | .text _ :: r => by simpa [noCommentsAll, noComments, viewList] using viewList_noComments r
  | .cdata _ :: r => by simpa [noCommentsAll, noComments, viewList] using viewList_noComments r
  | .decl _ :: r => by simpa [noCommentsAll, noComments, viewList] using viewList_noComments r
  | .unknown _ :: r => by simpa [noCommentsAll, noComments, viewList] using viewList_noComments r
end

/-- **C58**, comments: what is read from an accepted text is what the nodes say without the comments in it,
wherever they are. -/
theorem C58_comments (buffer : Str) (d : Doc) (h : parseDoc buffer = some d) :
    readBuffer buffer = (viewList (noCommentsAll d.nodes)).head? := by
  simp [readBuffer, h, viewList_noComments]

/-- A comment in front of a text: removed by `noComments`, and the text behind it is what the element shows. -/
example : noComments (.elem ['a'] [] [.comment ['x'], .text ['t'], .elem ['b'] [] [.comment ['y']]]) =
      .elem ['a'] [] [.text ['t'], .elem ['b'] [] []] ∧
    view (.elem ['a'] [] [.comment ['x'], .text ['t'], .elem ['b'] [] [.comment ['y']]]) =
      [.elem ['a'] [] ['t'] [.elem ['b'] [] [] []]] := by
  simp [noComments, noCommentsAll, view, viewList, getText]

end Verif.Xml
