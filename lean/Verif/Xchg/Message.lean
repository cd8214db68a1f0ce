import Verif.Uuid.Model
import Verif.Str.Model

/-!
# MVR-xchange messages (src/mvrxchange/mvrxchange_message.cpp:147-508)

Texts are `List Char`, one `Char` per byte.  JSON values are modelled as a tree; printing a tree to bytes and parsing it
again is in `JsonText.lean`.  Numbers with a
fraction are not modelled: the library never writes one.
-/

namespace Verif.Xchg

open Verif.Uuid Verif.Str

/-- nlohmann::json values (integers only).  Objects are association lists; looking a key up takes the first. -/
inductive Json
  | null
  | bool (b : Bool)
  | num (n : Int)
  | str (s : List Char)
  | arr (l : List Json)
  | obj (l : List (String × Json))

/-- How a call can go wrong: a C++ exception, or undefined behaviour (write past a 1024-byte field, or nlohmann's
`operator[]` on a constant object without the key). -/
inductive Trouble
  | thrown
  | undefined
deriving DecidableEq

/-- IMediaRessourceVectorInterface.h:72-98 `MvrUUID`. -/
abbrev Words := BitVec 32 × BitVec 32 × BitVec 32 × BitVec 32

/-- IMediaRessourceVectorInterface.h:1925-1935 `MVR_COMMIT_MESSAGE`. -/
structure Commit where
  fileName : List Char
  comment : List Char
  verMajor : BitVec 32
  verMinor : BitVec 32
  fileSize : BitVec 64
  fileUUID : Words
  stationUUID : Words
  forStations : List Words

/-- IMediaRessourceVectorInterface.h:1937-1945 `MVR_JOIN_MESSAGE`. -/
structure Join where
  provider : List Char
  stationName : List Char
  stationUUID : Words
  verMajor : BitVec 32
  verMinor : BitVec 32
  commits : List Commit

/-- IMediaRessourceVectorInterface.h:1964-1989 `IMVRxchangeMessage`.  The C++ struct has a tag and one member per message
type; only the members belonging to the tag are used, so the model is a sum.  `requestRet true _ file` is the answer
carrying a file (`BufferToFile`; sending from `PathToFile` reads the same bytes from disk and is not modelled). -/
inductive Msg
  | undefined
  | join (j : Join)
  | leave (station : Words)
  | commit (c : Commit)
  | request (file : Words) (from_ : List Words)
  | joinRet (ok : Bool) (err : List Char) (j : Join)
  | leaveRet (ok : Bool) (err : List Char)
  | commitRet (ok : Bool) (err : List Char)
  | requestRet (ok : Bool) (err : List Char) (file : List (BitVec 8))
  | newSessionHost

/-- `GdtfConverter::ConvertUUID(VWUUID(a,b,c,d)).GetStdString()`. -/
def uuidJson (u : Words) : Json := .str (convertToText (ofWords u.1 u.2.1 u.2.2.1 u.2.2.2))

/-- mvrxchange_message.cpp:149-167 `MVR_COMMIT_ToJson`. -/
def commitToJson (c : Commit) : List (String × Json) :=
  [("Type", .str "MVR_COMMIT".toList), ("FileName", .str c.fileName), ("Comment", .str c.comment),
   ("FileSize", .num c.fileSize.toNat), ("FileUUID", uuidJson c.fileUUID), ("StationUUID", uuidJson c.stationUUID),
   ("verMinor", .num c.verMinor.toNat), ("verMajor", .num c.verMajor.toNat),
   ("ForStationsUUID", .arr (c.forStations.map uuidJson))]

/-- mvrxchange_message.cpp:198-212 and 216-230, the fields JOIN and JOIN_RET share. -/
def joinToJson (j : Join) : List (String × Json) :=
  [("Provider", .str j.provider), ("StationName", .str j.stationName), ("StationUUID", uuidJson j.stationUUID),
   ("verMajor", .num j.verMajor.toNat), ("verMinor", .num j.verMinor.toNat),
   ("Commits", .arr (j.commits.map fun c => .obj (commitToJson c)))]

/-- mvrxchange_message.cpp:194-267, the switch.  `none`: no `Type` is set (`MVR_UNDEFINED`, `MVR_NEW_SESSION_HOST`). -/
def payload : Msg → Option (List (String × Json))
  | .join j => some (("Type", .str "MVR_JOIN".toList) :: joinToJson j)
  | .joinRet ok err j => some (("OK", .bool ok) :: ("Message", .str err) :: ("Type", .str "MVR_JOIN_RET".toList) :: joinToJson j)
  | .leave u => some [("Type", .str "MVR_LEAVE".toList), ("FromStationUUID", uuidJson u)]
  | .leaveRet ok err => some [("Type", .str "MVR_LEAVE_RET".toList), ("OK", .bool ok), ("Message", .str err)]
  | .commit c => some (commitToJson c)
  | .commitRet ok err => some [("OK", .bool ok), ("Message", .str err), ("Type", .str "MVR_COMMIT_RET".toList)]
  | .request f s => some [("Type", .str "MVR_REQUEST".toList), ("FileUUID", uuidJson f), ("FromStationUUID", .arr (s.map uuidJson))]
  | .requestRet ok err _ => some [("Type", .str "MVR_REQUEST_RET".toList), ("OK", .bool ok), ("Message", .str err)]
  | .undefined => none
  | .newSessionHost => none

/-- The body of a packet (mvrxchange_prefix.h:39-43): type 0 is JSON, type 1 a file, others are not defined. -/
inductive Body
  | json (j : Json)
  | file (b : List (BitVec 8))
  | other

/-- mvrxchange_message.cpp:192-315 `FromExternalMessage`.  Line 270 logs `payload["Type"].get<std::string>()`, which throws
when no type was set. -/
def encode (m : Msg) : Except Trouble Body :=
  match payload m with
  | none => .error .thrown
  | some p =>
    match m with
    | .requestRet true _ file => .ok (.file file)
    | _ => .ok (.json (.obj p))

/-- nlohmann `operator[](key) const`: undefined without the key, throws `type_error` on anything but an object. -/
def Json.at (j : Json) (k : String) : Except Trouble Json :=
  match j with
  | .obj l => match l.lookup k with
    | some v => .ok v
    | none => .error .undefined
  | _ => .error .thrown

/-- nlohmann `get<std::string>()`. -/
def Json.text : Json → Except Trouble (List Char)
  | .str s => .ok s
  | _ => .error .thrown

/-- nlohmann `get` of an unsigned number of `w` bits. -/
def Json.unsigned (w : Nat) : Json → Except Trouble (BitVec w)
  | .num n => .ok (BitVec.ofInt w n)
  | .bool b => .ok (BitVec.ofNat w b.toNat)
  | _ => .error .thrown

/-- The optional sign `std::stoul` accepts. -/
def takeSign : List Char → Bool × List Char
  | '-' :: t => (true, t)
  | '+' :: t => (false, t)
  | t => (false, t)

/-- `std::stoul`: throws if there is no number or it does not fit. -/
def stoul (s : List Char) : Except Trouble Nat :=
  let t := takeSign (s.dropWhile isSpace)
  let d := t.2.takeWhile isDigit
  let v := digitsVal 0 d
  if d = [] ∨ 2 ^ 64 ≤ v then .error .thrown else .ok (if t.1 then (2 ^ 64 - v) % 2 ^ 64 else v)

/-- mvrxchange_message.cpp:317-326 `HandleStringNumber`. -/
def handleStringNumber : Json → Except Trouble (BitVec 32)
  | .num n => .ok (BitVec.ofInt 32 n)
  | j => j.text >>= fun s => stoul s >>= fun v => .ok (BitVec.ofNat 32 v)

/-- mvrxchange_message.cpp:328-337 `HandleStringBool`. -/
def handleStringBool : Json → Except Trouble Bool
  | .bool b => .ok b
  | j => j.text >>= fun s => .ok (decide (s = "true".toList))

/-- `strcpy(field, text.c_str())` into a field of 1024 bytes. -/
def strcpy (s : List Char) : Except Trouble (List Char) :=
  let c := s.takeWhile (· ≠ '\x00')
  if 1024 ≤ c.length then .error .undefined else .ok c

/-- Iterating over a JSON value: `for (auto& it : j)`. -/
def Json.items : Json → List Json
  | .null => []
  | .arr l => l
  | .obj l => l.map Prod.snd
  | j => [j]

/-- `ConvertUUID(text, MvrUUID&)` on a field that was zero. -/
def readUuid (s : List Char) : Bool × Words :=
  let r := convertFromTextMvr s (0, 0, 0, 0)
  (r.ok, r.value)

/-- mvrxchange_message.cpp:182-187 and 388-396: a list of station UUIDs; unreadable ones are dropped. -/
def readUuids : List Json → Except Trouble (List Words)
  | [] => .ok []
  | j :: l => j.text >>= fun s => readUuids l >>= fun us =>
    .ok (if (readUuid s).1 then (readUuid s).2 :: us else us)

/-- mvrxchange_message.cpp:169-188 `MVR_COMMIT_FromJson`, in the order of the source.  Whether the two UUIDs could be read
is not looked at. -/
def commitFromJson (j : Json) : Except Trouble Commit := do
  let comment ← strcpy (← (← j.at "Comment").text)
  let verMajor ← (← j.at "verMajor").unsigned 32
  let verMinor ← (← j.at "verMinor").unsigned 32
  let fileSize ← (← j.at "FileSize").unsigned 64
  let fileName ← strcpy (← (← j.at "FileName").text)
  let f ← (← j.at "FileUUID").text
  let s ← (← j.at "StationUUID").text
  let us ← readUuids (← j.at "ForStationsUUID").items
  return { fileName, comment, verMajor, verMinor, fileSize, fileUUID := (readUuid f).2, stationUUID := (readUuid s).2,
           forStations := us }

/-- mvrxchange_message.cpp:359-363, 381-385: the list of commits. -/
def commitsFromJson : List Json → Except Trouble (List Commit)
  | [] => .ok []
  | j :: l => do
    let c ← commitFromJson j
    let cs ← commitsFromJson l
    return c :: cs

/-- `if(!noUUIDError) throw` (mvrxchange_message.cpp:431-434). -/
def checked {α : Type} (ok : Bool) (a : α) : Except Trouble α := if ok then .ok a else .error .thrown

/-- mvrxchange_message.cpp:344-357 and 366-375, the fields JOIN and JOIN_RET share.  The flag is `noUUIDError`. -/
def joinFields (j : Json) : Except Trouble (Bool × (List Commit → Join)) := do
  let verMajor ← handleStringNumber (← j.at "verMajor")
  let verMinor ← handleStringNumber (← j.at "verMinor")
  let provider ← strcpy (← (← j.at "Provider").text)
  let stationName ← strcpy (← (← j.at "StationName").text)
  let u ← (← j.at "StationUUID").text
  return ((readUuid u).1, fun commits => { provider, stationName, stationUUID := (readUuid u).2, verMajor, verMinor, commits })

/-- The fields of a plain answer (mvrxchange_message.cpp:392-395 and others). -/
def retFields (j : Json) : Except Trouble (Bool × List Char) := do
  let ok ← handleStringBool (← j.at "OK")
  let err ← strcpy (← (← j.at "Message").text)
  return (ok, err)

/-- mvrxchange_message.cpp:339-435 `Internal_ToExternalMessage`. -/
def fromJson (j : Json) : Except Trouble Msg := do
  let type ← j.at "Type"
  match type with
  | .str t =>
    if t = "MVR_JOIN".toList then
      let (ok, mk) ← joinFields j
      let cs ← commitsFromJson (← j.at "Commits").items
      checked ok (.join (mk cs))
    else if t = "MVR_JOIN_RET".toList then
      let (ok, mk) ← joinFields j
      let (retOk, err) ← retFields j
      let cs ← commitsFromJson (← j.at "Commits").items
      checked ok (.joinRet retOk err (mk cs))
    else if t = "MVR_COMMIT".toList then
      let c ← commitFromJson j
      return .commit c
    else if t = "MVR_COMMIT_RET".toList then
      let (retOk, err) ← retFields j
      return .commitRet retOk err
    else if t = "MVR_REQUEST".toList then
      let f ← (← j.at "FileUUID").text
      let us ← readUuids (← j.at "FromStationUUID").items
      checked (readUuid f).1 (.request (readUuid f).2 us)
    else if t = "MVR_REQUEST_RET".toList then
      let (retOk, err) ← retFields j
      return .requestRet retOk err []
    else if t = "MVR_LEAVE".toList then
      match j with
      | .obj l =>
        match l.lookup "FromStationUUID" with
        | some v => do
          let s ← v.text
          checked (readUuid s).1 (.leave (readUuid s).2)
        | none =>
          match l.lookup "StationUUID" with
          | some v => do
            let s ← v.text
            checked (readUuid s).1 (.leave (readUuid s).2)
          | none => return .leave (0, 0, 0, 0)
      | _ => .error .thrown
    else if t = "MVR_LEAVE_RET".toList then
      let (retOk, err) ← retFields j
      return .leaveRet retOk err
    else .error .thrown
  | _ => .error .thrown

/-- What the application gets: a message, or "undefined or incomplete, `RetIsOK` false, with an error text". -/
inductive Got
  | message (m : Msg)
  | refused

/-- mvrxchange_message.cpp:437-508 `ToExternalMessage`.  Line 463 logs `payload["Type"].get<std::string>()` outside the
`try`, so a type that is not a text throws to the caller; exceptions in `Internal_ToExternalMessage` are caught.  JSON that
cannot be parsed is `Json.null` here (it is refused because it is not an object).  An empty file body is refused. -/
def decode : Body → Except Trouble Got
  | .json (.obj l) =>
    match l.lookup "Type" with
    | none => .ok .refused
    | some t => do
      let _ ← t.text
      match fromJson (.obj l) with
      | .ok m => return .message m
      | .error .thrown => return .refused
      | .error .undefined => .error .undefined
  | .json _ => .ok .refused
  | .file [] => .ok .refused
  | .file b => .ok (.message (.requestRet true [] b))
  | .other => .ok .refused

end Verif.Xchg
