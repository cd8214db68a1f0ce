import Verif.Mdns.Model

/-!
# Specification: names and records of a DNS packet (RFC 1035, sections 3.1, 4.1)

Said without the functions of the model.  A packet is a list of bytes.
-/

namespace Verif.Mdns

/-- A part of a packet. -/
def Has (p : Bytes) (off : Nat) (part : Bytes) : Prop := ∃ before after, p = before ++ part ++ after ∧ before.length = off

/-- The labels of a name at an offset of a packet, and the offset behind the name.  A name is a sequence of labels that ends with a
zero byte or with a reference to the labels of an earlier name. -/
inductive NameAt (p : Bytes) : Nat → List Bytes → Nat → Prop
  | stop {off} : Has p off [0] → NameAt p off [] (off + 1)
  | label {off l ls fin} : l ≠ [] → l.length < 64 → Has p off (BitVec.ofNat 8 l.length :: l) →
      NameAt p (off + 1 + l.length) ls fin → NameAt p off (l :: ls) fin
  | ref {off to l ls fin} : to < 16384 → Has p off (net16 (0xC000 + to)) → l ≠ [] → l.length < 64 →
      Has p to (BitVec.ofNat 8 l.length :: l) → NameAt p (to + 1 + l.length) ls fin → NameAt p off (l :: ls) (off + 2)

/-- A name as text: every label and a point. -/
def text (ls : List Bytes) : Bytes := ls.flatMap (· ++ [46])

/-- A name at an offset, by its text, which has at most 256 bytes (RFC 1035: 255). -/
def NameIs (p : Bytes) (off : Nat) (t : Bytes) (fin : Nat) : Prop := ∃ ls, NameAt p off ls fin ∧ text ls = t ∧ t.length ≤ 256

/-- The data of a record of a type, from `off` to `fin`, for the name `n`: RFC 1035 (PTR, A, TXT), RFC 3596 (AAAA), RFC 2782 (SRV). -/
inductive DataAt (p : Bytes) (off fin : Nat) (n : Bytes) : Nat → Item → Prop
  | ptr {t} : NameIs p off t fin → DataAt p off fin n 12 (.ptr n t)
  | srv {priority weight port t} : Has p off (net16 priority ++ net16 weight ++ net16 port) → port < 65536 →
      NameIs p (off + 6) t fin → t ≠ [] → DataAt p off fin n 33 (.srv n port t)
  | a {ip} : Has p off ip → ip.length = 4 → fin = off + 4 → DataAt p off fin n 1 (.a n ip)
  | aaaa {ip} : Has p off ip → ip.length = 16 → fin = off + 16 → DataAt p off fin n 28 (.aaaa n ip)
  | txt {d} : Has p off d → fin = off + d.length → DataAt p off fin n 16 (.txt n d)
  | other {type d} : type ≠ 12 → type ≠ 33 → type ≠ 1 → type ≠ 28 → type ≠ 16 → Has p off d → fin = off + d.length →
      DataAt p off fin n type .other

/-- A resource record from `off` to `fin`: its name, type, class, time to live, the length of its data and the data. -/
def RecordAt (p : Bytes) (off : Nat) (i : Item) (fin : Nat) : Prop :=
  ∃ n e type cls ttl len, NameIs p off n e ∧ type < 65536 ∧ len < 65536 ∧
    Has p e (net16 type ++ net16 cls ++ net32 ttl ++ net16 len) ∧ fin = e + 10 + len ∧ DataAt p (e + 10) fin n type i

/-- Records one after the other. -/
inductive RecordsAt (p : Bytes) : Nat → List Item → Nat → Prop
  | none {off} : RecordsAt p off [] off
  | one {off i o is fin} : RecordAt p off i o → RecordsAt p o is fin → RecordsAt p off (i :: is) fin

/-- A question from `off` to `fin`: name, type and class. -/
def QuestionAt (p : Bytes) (off : Nat) (n : Bytes) (type cls : Nat) (fin : Nat) : Prop :=
  ∃ e, NameIs p off n e ∧ type < 65536 ∧ cls < 65536 ∧ Has p e (net16 type ++ net16 cls) ∧ fin = e + 4

/-- The header of a packet: identification, flags and the numbers of questions and of records in the three sections. -/
def HeaderAt (p : Bytes) (id flags questions answers authorities additional : Nat) : Prop :=
  flags < 65536 ∧ questions < 65536 ∧ answers < 65536 ∧ authorities < 65536 ∧ additional < 65536 ∧
  Has p 0 (net16 id ++ net16 flags ++ net16 questions ++ net16 answers ++ net16 authorities ++ net16 additional)

/-- A packet with at most one question and these records. -/
def IsAnswer (p : Bytes) (items : List Item) : Prop :=
  ∃ id flags questions as us ds o₁ o₂ o₃ o₄, items = as ++ us ++ ds ∧ HeaderAt p id flags questions as.length us.length ds.length ∧
    (questions = 0 ∧ o₁ = 12 ∨ questions = 1 ∧ ∃ n type cls, QuestionAt p 12 n type cls o₁) ∧
    RecordsAt p o₁ as o₂ ∧ RecordsAt p o₂ us o₃ ∧ RecordsAt p o₃ ds o₄

/-- A packet with one question. -/
def IsQuestion (p : Bytes) (n : Bytes) (type cls : Nat) : Prop :=
  ∃ id answers authorities additional fin, HeaderAt p id 0 1 answers authorities additional ∧ QuestionAt p 12 n type cls fin

/-- A question: the labels of the name, the type and the class. -/
structure Question where
  labels : List Bytes
  type : Nat
  cls : Nat

/-- Questions one after the other. -/
inductive QuestionsAt (p : Bytes) : Nat → List Question → Prop
  | none {off} : QuestionsAt p off []
  | one {off e q qs} : NameAt p off q.labels e → (text q.labels).length ≤ 256 → q.type < 65536 → q.cls < 65536 →
      Has p e (net16 q.type ++ net16 q.cls) → QuestionsAt p (e + 4) qs → QuestionsAt p off (q :: qs)

/-- A packet with these flags and questions. -/
def HasQuestions (p : Bytes) (flags : Nat) (qs : List Question) : Prop :=
  ∃ id answers authorities additional, HeaderAt p id flags qs.length answers authorities additional ∧ QuestionsAt p 12 qs

/-- The same byte, or the same letter. -/
def SameByte (a b : Byte) : Prop :=
  a = b ∨ (97 ≤ a.toNat ∧ a.toNat ≤ 122 ∧ b.toNat + 32 = a.toNat) ∨ (97 ≤ b.toNat ∧ b.toNat ≤ 122 ∧ a.toNat + 32 = b.toNat)

/-- Texts that differ in case only. -/
inductive SameText : Bytes → Bytes → Prop
  | nil : SameText [] []
  | cons {a b as bs} : SameByte a b → SameText as bs → SameText (a :: as) (b :: bs)

/-- Names that differ in case only. -/
inductive SameName : List Bytes → List Bytes → Prop
  | nil : SameName [] []
  | cons {a b as bs} : SameText a b → SameName as bs → SameName (a :: as) (b :: bs)

/-- RFC 6763, section 9: the name with which the types of services are asked for, "_services._dns-sd._udp.local". -/
def typesName : List Bytes :=
  [[95, 115, 101, 114, 118, 105, 99, 101, 115], [95, 100, 110, 115, 45, 115, 100], [95, 117, 100, 112], [108, 111, 99, 97, 108]]

/-- What a station with the service has to say to a question. -/
def Question.reply (service : Bytes) (q : Question) : Reply :=
  if q.type ≠ 12 then .nothing
  else if text q.labels = text typesName then .services
  else if text q.labels = service then .service (32768 ≤ q.cls)
  else .nothing

/-- What a station has to say to the questions of a packet: it looks at one after the other, up to the first that is not of the class of
the internet or asks for the types of services and is not the only content of the packet. -/
inductive Replies (service : Bytes) (only : Prop) : List Question → List Reply → Prop
  | none : Replies service only [] []
  | types {q qs} : SameName q.labels typesName → ¬ only → Replies service only (q :: qs) []
  | cls {q qs} : q.cls % 32768 ≠ 1 → Replies service only (q :: qs) []
  | one {q qs rs} : (SameName q.labels typesName → only) → q.cls % 32768 = 1 → Replies service only qs rs →
      Replies service only (q :: qs) (q.reply service :: rs)

end Verif.Mdns
