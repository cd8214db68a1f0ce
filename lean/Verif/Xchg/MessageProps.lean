import Verif.Xchg.Message
import Verif.Uuid.Props
import Verif.Str.Lemmas

/-!
# C49: MVR-xchange messages
-/

namespace Verif.Xchg

open Verif.Uuid Verif.Str

/-! ### Specification -/

/-- A text as a fixed 1024-byte message field can hold it. -/
def Fits (s : List Char) : Prop := s.length ≤ 1023 ∧ '\x00' ∉ s

/-- All texts of the message are field contents. -/
def Commit.Fits (c : Commit) : Prop := Xchg.Fits c.fileName ∧ Xchg.Fits c.comment

def Join.Fits (j : Join) : Prop := Xchg.Fits j.provider ∧ Xchg.Fits j.stationName ∧ ∀ c ∈ j.commits, c.Fits

def Msg.Fits : Msg → Prop
  | .join j => j.Fits
  | .joinRet _ e j => Xchg.Fits e ∧ j.Fits
  | .commit c => c.Fits
  | .leaveRet _ e => Xchg.Fits e
  | .commitRet _ e => Xchg.Fits e
  | .requestRet _ e _ => Xchg.Fits e
  | _ => True

/-- The messages an application can send: all but the two without a wire form. -/
def Msg.Sendable : Msg → Prop
  | .undefined => False
  | .newSessionHost => False
  | _ => True

/-- What the peer must see.  A refusal to send a file carries no file; an answer with a file carries no error text. -/
def Msg.seen : Msg → Msg
  | .requestRet true _ file => .requestRet true [] file
  | .requestRet false err _ => .requestRet false err []
  | m => m

/-! ### Lemmas -/

private theorem ok_bind' {ε α β : Type} (a : α) (f : α → Except ε β) : (Except.ok a >>= f) = f a := rfl

theorem takeWhile_all {α : Type} (p : α → Bool) (l : List α) (h : ∀ a ∈ l, p a = true) : l.takeWhile p = l := by
  induction l with
  | nil => rfl
  | cons a l ih => rw [List.takeWhile_cons, if_pos (h a (by simp)), ih (fun b hb => h b (by simp [hb]))]

theorem strcpy_fits {s : List Char} (h : Fits s) : strcpy s = .ok s := by
  unfold strcpy
  have : s.takeWhile (· ≠ '\x00') = s := by
    refine takeWhile_all _ _ ?_
    intro c hc
    have : c ≠ '\x00' := fun e => h.2 (e ▸ hc)
    simpa using this
  simp only [this]
  rw [if_neg (by have := h.1; omega)]

theorem readUuid_text (u : Words) : readUuid (convertToText (ofWords u.1 u.2.1 u.2.2.1 u.2.2.2)) = (true, u) := by
  unfold readUuid
  rw [C09_mvr_words]

theorem readUuids_map (us : List Words) : readUuids (us.map uuidJson) = .ok us := by
  induction us with
  | nil => rfl
  | cons u us ih =>
    simp only [List.map_cons, readUuids, uuidJson, Json.text, ok_bind']
    rw [ih]
    simp only [ok_bind', readUuid_text, if_true]

theorem unsigned_toNat (w : Nat) (x : BitVec w) : (Json.num x.toNat).unsigned w = .ok x := by
  simp [Json.unsigned]

theorem handle_toNat (x : BitVec 32) : handleStringNumber (.num x.toNat) = .ok x := by
  simp [handleStringNumber]

theorem commit_roundtrip (c : Commit) (h : c.Fits) : commitFromJson (.obj (commitToJson c)) = .ok c := by
  unfold commitFromJson
  have hc : (Json.obj (commitToJson c)).at "Comment" = .ok (.str c.comment) := rfl
  have h1 : (Json.obj (commitToJson c)).at "verMajor" = .ok (.num c.verMajor.toNat) := rfl
  have h2 : (Json.obj (commitToJson c)).at "verMinor" = .ok (.num c.verMinor.toNat) := rfl
  have h3 : (Json.obj (commitToJson c)).at "FileSize" = .ok (.num c.fileSize.toNat) := rfl
  have h4 : (Json.obj (commitToJson c)).at "FileName" = .ok (.str c.fileName) := rfl
  have h5 : (Json.obj (commitToJson c)).at "FileUUID" = .ok (uuidJson c.fileUUID) := rfl
  have h6 : (Json.obj (commitToJson c)).at "StationUUID" = .ok (uuidJson c.stationUUID) := rfl
  have h7 : (Json.obj (commitToJson c)).at "ForStationsUUID" = .ok (.arr (c.forStations.map uuidJson)) := rfl
  simp only [hc, h1, h2, h3, h4, h5, h6, h7, ok_bind', Json.text, strcpy_fits h.1, strcpy_fits h.2, unsigned_toNat, Json.items,
    readUuids_map, uuidJson, readUuid_text]
  rfl

theorem commits_roundtrip (cs : List Commit) (h : ∀ c ∈ cs, c.Fits) :
    commitsFromJson (cs.map fun c => .obj (commitToJson c)) = .ok cs := by
  induction cs with
  | nil => rfl
  | cons c cs ih =>
    simp only [List.map_cons, commitsFromJson]
    rw [commit_roundtrip c (h c (by simp)), ih (fun c hc => h c (by simp [hc]))]
    rfl

theorem joinFields_eq (l : List (String × Json)) (j : Join) (h : j.Fits)
    (h1 : l.lookup "verMajor" = some (.num j.verMajor.toNat)) (h2 : l.lookup "verMinor" = some (.num j.verMinor.toNat))
    (h3 : l.lookup "Provider" = some (.str j.provider)) (h4 : l.lookup "StationName" = some (.str j.stationName))
    (h5 : l.lookup "StationUUID" = some (uuidJson j.stationUUID)) :
    joinFields (.obj l) = .ok (true, fun commits => { j with commits := commits }) := by
  unfold joinFields
  simp only [Json.at, h1, h2, h3, h4, h5, ok_bind', handle_toNat, Json.text, strcpy_fits h.1, strcpy_fits h.2.1, uuidJson,
    readUuid_text]
  rfl

theorem retFields_eq (l : List (String × Json)) (ok : Bool) (err : List Char) (h : Fits err)
    (h1 : l.lookup "OK" = some (.bool ok)) (h2 : l.lookup "Message" = some (.str err)) : retFields (.obj l) = .ok (ok, err) := by
  unfold retFields
  simp only [Json.at, h1, h2, ok_bind', handleStringBool, Json.text, strcpy_fits h]
  rfl

/-! ### Theorems -/

/-- Every message an application can send is understood by the peer as the same message: all fields, all commits and all
addressed stations.  The only exception is an answer with an empty file, see `C49_empty_file_violated`. -/
theorem C49_roundtrip_partial (m : Msg) (hs : m.Sendable) (hf : m.Fits) (hne : ∀ e, m ≠ .requestRet true e []) :
    ∃ b, encode m = .ok b ∧ decode b = .ok (.message m.seen) := by
  cases m with
  | undefined => exact hs.elim
  | newSessionHost => exact hs.elim
  | join j =>
    refine ⟨_, rfl, ?_⟩
    have h1 : fromJson (.obj (("Type", .str "MVR_JOIN".toList) :: joinToJson j)) = .ok (.join j) := by
      unfold fromJson
      rw [joinFields_eq _ j hf rfl rfl rfl rfl rfl]
      have e1 : (Json.obj (("Type", .str "MVR_JOIN".toList) :: joinToJson j)).at "Type" = .ok (.str "MVR_JOIN".toList) := rfl
      have e2 : (Json.obj (("Type", .str "MVR_JOIN".toList) :: joinToJson j)).at "Commits" =
        .ok (.arr (j.commits.map fun c => .obj (commitToJson c))) := rfl
      rw [e1, e2]
      simp only [ok_bind', if_true, Json.items]
      rw [commits_roundtrip _ hf.2.2]
      rfl
    have e3 : ((("Type", Json.str "MVR_JOIN".toList) :: joinToJson j)).lookup "Type" = some (.str "MVR_JOIN".toList) := rfl
    simp only [decode, e3, Json.text, ok_bind', h1]
    rfl
  | joinRet ok err j =>
    refine ⟨_, rfl, ?_⟩
    have h1 : fromJson (.obj (("OK", .bool ok) :: ("Message", .str err) :: ("Type", .str "MVR_JOIN_RET".toList) :: joinToJson j)) =
        .ok (.joinRet ok err j) := by
      unfold fromJson
      rw [joinFields_eq _ j hf.2 rfl rfl rfl rfl rfl, retFields_eq _ ok err hf.1 rfl rfl]
      have e1 : (Json.obj (("OK", .bool ok) :: ("Message", .str err) :: ("Type", .str "MVR_JOIN_RET".toList) :: joinToJson j)).at "Type" =
        .ok (.str "MVR_JOIN_RET".toList) := rfl
      have e2 : (Json.obj (("OK", .bool ok) :: ("Message", .str err) :: ("Type", .str "MVR_JOIN_RET".toList) :: joinToJson j)).at "Commits" =
        .ok (.arr (j.commits.map fun c => .obj (commitToJson c))) := rfl
      rw [e1, e2]
      simp only [ok_bind', Json.items]
      rw [if_neg (by decide), if_pos trivial, commits_roundtrip _ hf.2.2.2]
      rfl
    have e3 : ((("OK", Json.bool ok) :: ("Message", .str err) :: ("Type", .str "MVR_JOIN_RET".toList) :: joinToJson j)).lookup "Type" =
      some (.str "MVR_JOIN_RET".toList) := rfl
    simp only [decode, e3, Json.text, ok_bind', h1]
    rfl
  | leave u =>
    refine ⟨_, rfl, ?_⟩
    have h1 : fromJson (.obj [("Type", .str "MVR_LEAVE".toList), ("FromStationUUID", uuidJson u)]) = .ok (.leave u) := by
      unfold fromJson
      have e1 : (Json.obj [("Type", .str "MVR_LEAVE".toList), ("FromStationUUID", uuidJson u)]).at "Type" =
        .ok (.str "MVR_LEAVE".toList) := rfl
      have e2 : [("Type", Json.str "MVR_LEAVE".toList), ("FromStationUUID", uuidJson u)].lookup "FromStationUUID" = some (uuidJson u) := rfl
      rw [e1]
      simp only [ok_bind']
      rw [if_neg (by decide), if_neg (by decide), if_neg (by decide), if_neg (by decide), if_neg (by decide), if_neg (by decide),
        if_pos trivial]
      simp only [e2]
      simp only [uuidJson, Json.text, ok_bind', readUuid_text]
      rfl
    have e3 : [("Type", Json.str "MVR_LEAVE".toList), ("FromStationUUID", uuidJson u)].lookup "Type" = some (.str "MVR_LEAVE".toList) := rfl
    simp only [decode, e3, Json.text, ok_bind', h1]
    rfl
  | commit c =>
    refine ⟨_, rfl, ?_⟩
    have h1 : fromJson (.obj (commitToJson c)) = .ok (.commit c) := by
      unfold fromJson
      rw [commit_roundtrip c hf]
      have e1 : (Json.obj (commitToJson c)).at "Type" = .ok (.str "MVR_COMMIT".toList) := rfl
      rw [e1]
      simp only [ok_bind']
      rw [if_neg (by decide), if_neg (by decide), if_pos trivial]
      rfl
    have e3 : (commitToJson c).lookup "Type" = some (.str "MVR_COMMIT".toList) := rfl
    simp only [decode, e3, Json.text, ok_bind', h1]
    rfl
  | request f s =>
    refine ⟨_, rfl, ?_⟩
    have h1 : fromJson (.obj [("Type", .str "MVR_REQUEST".toList), ("FileUUID", uuidJson f), ("FromStationUUID", .arr (s.map uuidJson))]) =
        .ok (.request f s) := by
      unfold fromJson
      have e1 : (Json.obj [("Type", .str "MVR_REQUEST".toList), ("FileUUID", uuidJson f), ("FromStationUUID", .arr (s.map uuidJson))]).at "Type" =
        .ok (.str "MVR_REQUEST".toList) := rfl
      have e2 : (Json.obj [("Type", .str "MVR_REQUEST".toList), ("FileUUID", uuidJson f), ("FromStationUUID", .arr (s.map uuidJson))]).at
        "FileUUID" = .ok (uuidJson f) := rfl
      have e4 : (Json.obj [("Type", .str "MVR_REQUEST".toList), ("FileUUID", uuidJson f), ("FromStationUUID", .arr (s.map uuidJson))]).at
        "FromStationUUID" = .ok (.arr (s.map uuidJson)) := rfl
      rw [e1, e2, e4]
      simp only [ok_bind', Json.items]
      rw [if_neg (by decide), if_neg (by decide), if_neg (by decide), if_neg (by decide), if_pos trivial, readUuids_map]
      simp only [uuidJson, Json.text, ok_bind', readUuid_text]
      rfl
    have e3 : [("Type", Json.str "MVR_REQUEST".toList), ("FileUUID", uuidJson f), ("FromStationUUID", .arr (s.map uuidJson))].lookup "Type" =
      some (.str "MVR_REQUEST".toList) := rfl
    simp only [decode, e3, Json.text, ok_bind', h1]
    rfl
  | leaveRet ok err =>
    refine ⟨_, rfl, ?_⟩
    have h1 : fromJson (.obj [("Type", .str "MVR_LEAVE_RET".toList), ("OK", .bool ok), ("Message", .str err)]) = .ok (.leaveRet ok err) := by
      unfold fromJson
      have e1 : (Json.obj [("Type", .str "MVR_LEAVE_RET".toList), ("OK", .bool ok), ("Message", .str err)]).at "Type" =
        .ok (.str "MVR_LEAVE_RET".toList) := rfl
      rw [e1, retFields_eq _ ok err hf rfl rfl]
      simp only [ok_bind']
      rw [if_neg (by decide), if_neg (by decide), if_neg (by decide), if_neg (by decide), if_neg (by decide), if_neg (by decide),
        if_neg (by decide), if_pos trivial]
      rfl
    have e3 : [("Type", Json.str "MVR_LEAVE_RET".toList), ("OK", .bool ok), ("Message", .str err)].lookup "Type" =
      some (.str "MVR_LEAVE_RET".toList) := rfl
    simp only [decode, e3, Json.text, ok_bind', h1]
    rfl
  | commitRet ok err =>
    refine ⟨_, rfl, ?_⟩
    have h1 : fromJson (.obj [("OK", .bool ok), ("Message", .str err), ("Type", .str "MVR_COMMIT_RET".toList)]) = .ok (.commitRet ok err) := by
      unfold fromJson
      have e1 : (Json.obj [("OK", .bool ok), ("Message", .str err), ("Type", .str "MVR_COMMIT_RET".toList)]).at "Type" =
        .ok (.str "MVR_COMMIT_RET".toList) := rfl
      rw [e1, retFields_eq _ ok err hf rfl rfl]
      simp only [ok_bind']
      rw [if_neg (by decide), if_neg (by decide), if_neg (by decide), if_pos trivial]
      rfl
    have e3 : [("OK", Json.bool ok), ("Message", .str err), ("Type", .str "MVR_COMMIT_RET".toList)].lookup "Type" =
      some (.str "MVR_COMMIT_RET".toList) := rfl
    simp only [decode, e3, Json.text, ok_bind', h1]
    rfl
  | requestRet ok err file =>
    cases ok with
    | true =>
      cases file with
      | nil => exact absurd rfl (hne err)
      | cons b file => exact ⟨_, rfl, rfl⟩
    | false =>
      refine ⟨_, rfl, ?_⟩
      have h1 : fromJson (.obj [("Type", .str "MVR_REQUEST_RET".toList), ("OK", .bool false), ("Message", .str err)]) =
          .ok (.requestRet false err []) := by
        unfold fromJson
        have e1 : (Json.obj [("Type", .str "MVR_REQUEST_RET".toList), ("OK", .bool false), ("Message", .str err)]).at "Type" =
          .ok (.str "MVR_REQUEST_RET".toList) := rfl
        rw [e1, retFields_eq _ false err hf rfl rfl]
        simp only [ok_bind']
        rw [if_neg (by decide), if_neg (by decide), if_neg (by decide), if_neg (by decide), if_neg (by decide), if_pos trivial]
        rfl
      have e3 : [("Type", Json.str "MVR_REQUEST_RET".toList), ("OK", .bool false), ("Message", .str err)].lookup "Type" =
        some (.str "MVR_REQUEST_RET".toList) := rfl
      simp only [decode, e3, Json.text, ok_bind', h1]
      rfl

/-- A join with a commit and two addressed stations meets the hypotheses. -/
example : ∃ m : Msg, m.Sendable ∧ m.Fits ∧ (∀ e, m ≠ .requestRet true e []) ∧ ∃ j, m = .join j ∧ j.commits.length = 1 :=
  ⟨.join ⟨"Console".toList, "Front of house".toList, (1, 2, 3, 4), 1, 6,
     [⟨"show.mvr".toList, "first draft".toList, 1, 6, 123456, (5, 6, 7, 8), (1, 2, 3, 4), [(9, 9, 9, 9), (0, 0, 0, 1)]⟩]⟩,
   trivial, ⟨⟨by decide, by decide⟩, ⟨by decide, by decide⟩, by
     intro c hc; simp at hc; subst hc; exact ⟨⟨by decide, by decide⟩, ⟨by decide, by decide⟩⟩⟩, by simp, _, rfl, rfl⟩

/-- **Violation.** An empty file cannot be transferred: the answer is refused by the peer. -/
theorem C49_empty_file_violated (err : List Char) :
    ∃ b, encode (.requestRet true err []) = .ok b ∧ decode b = .ok .refused := ⟨_, rfl, rfl⟩

/-- **Violation.** A message without a type throws while it is being sent; this is what a station without a message
callback answers to every incoming packet, on a thread where nothing catches the exception. -/
theorem C49_undefined_violated : encode .undefined = .error .thrown ∧ encode .newSessionHost = .error .thrown := ⟨rfl, rfl⟩

/-- **Violation.** A peer sending any packet whose `Type` is not a text makes the receiver throw outside its handler. -/
theorem C49_type_violated (l : List (String × Json)) (t : Json) (h : l.lookup "Type" = some t) (ht : ∀ s, t ≠ .str s) :
    decode (.json (.obj l)) = .error .thrown := by
  simp only [decode, h]
  cases t with
  | str s => exact absurd rfl (ht s)
  | _ => rfl

example : decode (.json (.obj [("Type", .num 1)])) = .error .thrown :=
  C49_type_violated _ (.num 1) rfl (by simp)

/-- **Violation.** A station name of 1024 or more bytes from a peer is written past the end of its field, whatever else the
message contains. -/
theorem C49_overflow_violated (provider name : List Char) (uuid commits : Json) (vMaj vMin : Int) (hp : Fits provider)
    (hn : 1024 ≤ name.length) (hz : '\x00' ∉ name) :
    decode (.json (.obj [("Type", .str "MVR_JOIN".toList), ("verMajor", .num vMaj), ("verMinor", .num vMin),
      ("Provider", .str provider), ("StationName", .str name), ("StationUUID", uuid), ("Commits", commits)])) = .error .undefined := by
  have hs : strcpy name = .error .undefined := by
    unfold strcpy
    have : name.takeWhile (· ≠ '\x00') = name := by
      refine takeWhile_all _ _ ?_
      intro c hc
      have : c ≠ '\x00' := fun e => hz (e ▸ hc)
      simpa using this
    simp only [this]
    rw [if_pos hn]
  have hj : joinFields (.obj [("Type", .str "MVR_JOIN".toList), ("verMajor", .num vMaj), ("verMinor", .num vMin),
      ("Provider", .str provider), ("StationName", .str name), ("StationUUID", uuid), ("Commits", commits)]) = .error .undefined := by
    have e1 : (Json.obj [("Type", .str "MVR_JOIN".toList), ("verMajor", .num vMaj), ("verMinor", .num vMin),
      ("Provider", .str provider), ("StationName", .str name), ("StationUUID", uuid), ("Commits", commits)]).at "verMajor" = .ok (.num vMaj) := rfl
    have e2 : (Json.obj [("Type", .str "MVR_JOIN".toList), ("verMajor", .num vMaj), ("verMinor", .num vMin),
      ("Provider", .str provider), ("StationName", .str name), ("StationUUID", uuid), ("Commits", commits)]).at "verMinor" = .ok (.num vMin) := rfl
    have e3 : (Json.obj [("Type", .str "MVR_JOIN".toList), ("verMajor", .num vMaj), ("verMinor", .num vMin),
      ("Provider", .str provider), ("StationName", .str name), ("StationUUID", uuid), ("Commits", commits)]).at "Provider" = .ok (.str provider) := rfl
    have e4 : (Json.obj [("Type", .str "MVR_JOIN".toList), ("verMajor", .num vMaj), ("verMinor", .num vMin),
      ("Provider", .str provider), ("StationName", .str name), ("StationUUID", uuid), ("Commits", commits)]).at "StationName" = .ok (.str name) := rfl
    unfold joinFields
    rw [e1, e2, e3, e4]
    simp only [ok_bind', handleStringNumber, Json.text, strcpy_fits hp, hs]
    rfl
  have hf : fromJson (.obj [("Type", .str "MVR_JOIN".toList), ("verMajor", .num vMaj), ("verMinor", .num vMin),
      ("Provider", .str provider), ("StationName", .str name), ("StationUUID", uuid), ("Commits", commits)]) = .error .undefined := by
    unfold fromJson
    rw [hj]
    rfl
  simp only [decode, hf]
  rfl

example : Fits "x".toList ∧ 1024 ≤ (List.replicate 2000 'a').length ∧ '\x00' ∉ List.replicate 2000 'a' :=
  ⟨⟨by decide, by decide⟩, by rw [List.length_replicate]; decide, fun h => by
    have := List.eq_of_mem_replicate h
    exact absurd this (by decide)⟩

/-- **Violation.** Leaving out any one of the fields of a plain answer reads a key that is not there, which is undefined. -/
theorem C49_missing_key_violated (ok : Json) :
    decode (.json (.obj [("Type", .str "MVR_COMMIT_RET".toList)])) = .error .undefined ∧
    decode (.json (.obj [("Type", .str "MVR_COMMIT_RET".toList), ("OK", .bool true)])) = .error .undefined ∧
    decode (.json (.obj [("Type", .str "MVR_JOIN".toList), ("OK", ok)])) = .error .undefined := ⟨rfl, rfl, rfl⟩

/-- Packets that are no JSON object, have no type, an unknown type, an unknown packet kind or an empty body are refused
without harm. -/
theorem C49_refused (l : List (String × Json)) (t : List Char) :
    decode .other = .ok .refused ∧ decode (.json .null) = .ok .refused ∧
    (l.lookup "Type" = none → decode (.json (.obj l)) = .ok .refused) ∧
    (l.lookup "Type" = some (.str t) →
      t ∉ ["MVR_JOIN".toList, "MVR_JOIN_RET".toList, "MVR_COMMIT".toList, "MVR_COMMIT_RET".toList, "MVR_REQUEST".toList,
        "MVR_REQUEST_RET".toList, "MVR_LEAVE".toList, "MVR_LEAVE_RET".toList] → decode (.json (.obj l)) = .ok .refused) := by
  refine ⟨rfl, rfl, fun h => by simp only [decode, h], fun h ht => ?_⟩
  have hf : fromJson (.obj l) = .error .thrown := by
    unfold fromJson
    simp only [Json.at, h, ok_bind']
    simp only [List.mem_cons, List.not_mem_nil, or_false, not_or] at ht
    obtain ⟨h1, h2, h3, h4, h5, h6, h7, h8⟩ := ht
    rw [if_neg h1, if_neg h2, if_neg h3, if_neg h4, if_neg h5, if_neg h6, if_neg h7, if_neg h8]
  simp only [decode, h, Json.text, ok_bind', hf]
  rfl

/-- A leave message in the older form, with `StationUUID` in place of `FromStationUUID`, is understood too. -/
theorem C49_leave_old_form (u : Words) :
    decode (.json (.obj [("Type", .str "MVR_LEAVE".toList), ("StationUUID", uuidJson u)])) = .ok (.message (.leave u)) := by
  have h1 : fromJson (.obj [("Type", .str "MVR_LEAVE".toList), ("StationUUID", uuidJson u)]) = .ok (.leave u) := by
    unfold fromJson
    have e1 : (Json.obj [("Type", .str "MVR_LEAVE".toList), ("StationUUID", uuidJson u)]).at "Type" =
      .ok (.str "MVR_LEAVE".toList) := rfl
    have e2 : [("Type", Json.str "MVR_LEAVE".toList), ("StationUUID", uuidJson u)].lookup "FromStationUUID" = none := rfl
    have e3 : [("Type", Json.str "MVR_LEAVE".toList), ("StationUUID", uuidJson u)].lookup "StationUUID" = some (uuidJson u) := rfl
    rw [e1]
    simp only [ok_bind']
    rw [if_neg (by decide), if_neg (by decide), if_neg (by decide), if_neg (by decide), if_neg (by decide), if_neg (by decide),
      if_pos trivial]
    simp only [e2, e3]
    simp only [uuidJson, Json.text, ok_bind', readUuid_text]
    rfl
  have e3 : [("Type", Json.str "MVR_LEAVE".toList), ("StationUUID", uuidJson u)].lookup "Type" = some (.str "MVR_LEAVE".toList) := rfl
  simp only [decode, e3, Json.text, ok_bind', h1]
  rfl

/-- Version numbers sent as texts are understood. -/
theorem C49_string_number (n : BitVec 32) : handleStringNumber (.str (natText n.toNat)) = .ok n := by
  have hlt := n.isLt
  obtain ⟨c, t, hc, hd⟩ := natText_head n.toNat
  have hsp : isSpace c = false := by
    cases h : isSpace c with
    | false => rfl
    | true =>
      exfalso
      unfold isSpace at h
      simp only [Bool.or_eq_true, beq_iff_eq] at h
      rcases h with ((((rfl | rfl) | rfl) | rfl) | rfl) | rfl <;> exact absurd hd (by decide)
  have hdrop : (natText n.toNat).dropWhile isSpace = natText n.toNat := by
    rw [hc, List.dropWhile_cons, hsp]
    rfl
  have htake : (natText n.toNat).takeWhile isDigit = natText n.toNat := takeWhile_all _ _ (natText_digits _)
  have hst : stoul (natText n.toNat) = .ok n.toNat := by
    unfold stoul
    simp only [hdrop]
    have hm : takeSign (natText n.toNat) = (false, natText n.toNat) := by
      rw [hc]
      unfold takeSign
      split
      · rename_i h
        cases h
        exact absurd hd (by decide)
      · rename_i h
        cases h
        exact absurd hd (by decide)
      · rfl
    rw [hm]
    simp only [htake, digitsVal_natText]
    rw [if_neg (by
      rintro (h | h)
      · exact natText_ne_nil _ h
      · omega)]
    simp
  simp only [handleStringNumber, Json.text, ok_bind', hst]
  simp

/-- Truth values sent as texts: exactly the text "true" means true. -/
theorem C49_string_bool (s : List Char) (b : Bool) :
    handleStringBool (.bool b) = .ok b ∧ (handleStringBool (.str s) = .ok true ↔ s = ['t', 'r', 'u', 'e']) ∧
    (s ≠ ['t', 'r', 'u', 'e'] → handleStringBool (.str s) = .ok false) := by
  have e : handleStringBool (.str s) = .ok (decide (s = ['t', 'r', 'u', 'e'])) := rfl
  refine ⟨rfl, ?_, ?_⟩
  · rw [e]
    by_cases h : s = ['t', 'r', 'u', 'e']
    · rw [decide_eq_true h]; exact ⟨fun _ => h, fun _ => rfl⟩
    · rw [decide_eq_false h]
      exact ⟨fun h' => by injection h' with h'; exact absurd h' (by decide), fun h' => absurd h' h⟩
  · intro h; rw [e, decide_eq_false h]

/-- Numbers sent as texts of digits: below 2^64 the value is taken modulo 2^32, from 2^64 on the reader throws. -/
theorem C49_string_number_any (n : Nat) :
    handleStringNumber (.str (natText n)) = if n < 2 ^ 64 then .ok (BitVec.ofNat 32 n) else .error .thrown := by
  obtain ⟨c, t, hc, hd⟩ := natText_head n
  have hsp : isSpace c = false := by
    cases h : isSpace c with
    | false => rfl
    | true =>
      exfalso
      unfold isSpace at h
      simp only [Bool.or_eq_true, beq_iff_eq] at h
      rcases h with ((((rfl | rfl) | rfl) | rfl) | rfl) | rfl <;> exact absurd hd (by decide)
  have hdrop : (natText n).dropWhile isSpace = natText n := by
    rw [hc, List.dropWhile_cons, hsp]
    rfl
  have htake : (natText n).takeWhile isDigit = natText n := takeWhile_all _ _ (natText_digits _)
  have hst : stoul (natText n) = if n < 2 ^ 64 then .ok n else .error .thrown := by
    unfold stoul
    simp only [hdrop]
    have hm : takeSign (natText n) = (false, natText n) := by
      rw [hc]
      unfold takeSign
      split
      · rename_i h
        cases h
        exact absurd hd (by decide)
      · rename_i h
        cases h
        exact absurd hd (by decide)
      · rfl
    rw [hm]
    simp only [htake, digitsVal_natText]
    by_cases hn : n < 2 ^ 64
    · rw [if_pos hn, if_neg (by
        rintro (h | h)
        · exact natText_ne_nil _ h
        · omega)]
      simp
    · rw [if_neg hn, if_pos (.inr (by omega))]
  simp only [handleStringNumber, Json.text, ok_bind', hst]
  split <;> rfl

example : handleStringBool (.str "True".toList) = .ok false := (C49_string_bool _ true).2.2 (by decide)

end Verif.Xchg
