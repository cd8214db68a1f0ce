import Verif.Sha.Digest

/-!
# C01, C02: the SHA-256 object

Specification: `Verif.Fips` (Spec.lean), written from FIPS 180-4.
`Junk` is the content of uninitialised stack arrays; the only thing assumed about it is that the local
array `extra[64]` has 64 elements.  `s` is an arbitrary object whose `m_buffer` is a 64 byte array: the
constructor calls `reset` and leaves `m_buffer` uninitialised.
-/

namespace Verif.Sha
open Verif.Fips

/-- The specification's prime table is the increasing list of the primes below 312, there are 64. -/
theorem primes_spec : primes.length = 64 ∧ primes.Pairwise (· < ·) ∧
    ∀ n, n < 312 → (n ∈ primes ↔ 2 ≤ n ∧ ∀ d, d < n → n % d = 0 → d < 2) := by
  refine ⟨by decide, by decide +kernel, ?_⟩
  have h : ∀ n : Fin 312, (n.val ∈ primes ↔ 2 ≤ n.val ∧ ∀ d, d < n.val → n.val % d = 0 → d < 2) := by
    decide +kernel
  intro n hn
  exact h ⟨n, hn⟩

/-- The specification's round constants are the fractional parts of the cube roots of the primes. -/
theorem K_spec (t : Nat) (h : t < 64) : IsCbrtFrac (primes.getD t 0) (K t) := by
  have key : ∀ t : Fin 64, let p := primes.getD t.val 0; let r := bisect (fun r => r^3 ≤ p * 2^96) 40 0 (2^40)
    r^3 ≤ p * 2^96 ∧ p * 2^96 < (r+1)^3 := by decide +kernel
  exact ⟨_, (key ⟨t, h⟩).1, (key ⟨t, h⟩).2, rfl⟩

/-- The specification's initial hash words are the fractional parts of square roots of primes. -/
theorem H0_spec (i : Nat) (h : i < 8) : IsSqrtFrac (primes.getD i 0) (H0 i) := by
  have key : ∀ t : Fin 8, let p := primes.getD t.val 0; let r := bisect (fun r => r^2 ≤ p * 2^64) 40 0 (2^40)
    r^2 ≤ p * 2^64 ∧ p * 2^64 < (r+1)^2 := by decide +kernel
  exact ⟨_, (key ⟨i, h⟩).1, (key ⟨i, h⟩).2, rfl⟩

/-- **C01**, raw form: constructing an object, one `add`, `getHash(buffer)` gives the FIPS digest, without
memory error, whatever the uninitialised memory contains.  (`Fips.pad` writes the bit length modulo 2^64;
for messages below 2^61 bytes that is the bit length the standard asks for.) -/
theorem C01_add_getHash (j j' : Junk) (hj' : j'.extra.length = 64) (s : State)
    (hs : s.buffer.length = 64) (m : List Byte) :
    ∃ s' t, add j (reset s) m = some s' ∧ getHashRaw j' s' = some (sha256 m, t) := by
  obtain ⟨s', h1, h2⟩ := add_inv j (reset s) [] m (reset_inv s hs)
  obtain ⟨t, h3, _⟩ := getHashRaw_inv j' hj' s' _ h2
  exact ⟨s', t, h1, by simpa using h3⟩

/-- **C01**, text form through `operator()`, on a used object: 64 lower-case hex digits of the digest. -/
theorem C01_call (j : Junk) (hj : j.extra.length = 64) (s : State)
    (hs : s.buffer.length = 64) (m : List Byte) :
    ∃ t, call j s m = some (hexText (sha256 m), t) := by
  obtain ⟨s', h1, h2⟩ := add_inv j (reset s) [] m (reset_inv s hs)
  obtain ⟨t, h3, _⟩ := getHashRaw_inv j hj s' _ h2
  refine ⟨t, ?_⟩
  simp only [List.nil_append] at h3
  simp [call, getHash, h1, h3, hexText_eq]

/-- The text form has 64 characters. -/
theorem C01_text_length (m : List Byte) : (hexText (sha256 m)).length = 64 := by
  have hx : ∀ bs : List Byte, (hexText bs).length = 2 * bs.length := by
    intro bs
    induction bs with
    | nil => rfl
    | cons b bs ih => simp [hexText] at ih ⊢; omega
  rw [hx]
  simp [sha256, wordBytes, bigEndian_length]

/-- Non-vacuity of C01: the FIPS example "abc", through the *model*. -/
example : (call ⟨fun _ => 7, List.replicate 64 9⟩ ⟨5, 3, List.replicate 64 1, ⟨1,2,3,4,5,6,7,8⟩⟩
    [0x61, 0x62, 0x63]).map (fun r => String.ofList r.1) =
    some "ba7816bf8f01cfea414140de5dae2223b00361a396177a9cb410ff61f20015ad" := by decide +kernel

/-- What a history of calls must answer: every `getHash` yields the digest of the concatenation of all
bytes added so far. -/
def digests (m : List Byte) : List Op → List (List Byte)
  | [] => []
  | .add _ data :: ops => digests (m ++ data) ops
  | .getHash _ :: ops => sha256 m :: digests m ops

/-- Local arrays have their declared size. -/
def Op.Wf : Op → Prop
  | .add _ _ => True
  | .getHash j => j.extra.length = 64

theorem run_inv (ops : List Op) : ∀ (s : State) (m : List Byte), Inv s m → (∀ o ∈ ops, o.Wf) →
    run s ops = some (digests m ops) := by
  induction ops with
  | nil => intros; rfl
  | cons o ops ih =>
    intro s m h hw
    cases o with
    | add j data =>
      obtain ⟨s', h1, h2⟩ := add_inv j s m data h
      simp only [run, h1, Option.bind_eq_bind, Option.bind_some, digests]
      exact ih s' _ h2 (fun o ho => hw o (List.mem_cons_of_mem _ ho))
    | getHash j =>
      obtain ⟨s', h1, h2⟩ := getHashRaw_inv j (hw _ List.mem_cons_self) s m h
      simp only [run, h1, Option.bind_eq_bind, Option.bind_some, digests]
      rw [ih s' _ h2 (fun o ho => hw o (List.mem_cons_of_mem _ ho))]
      rfl

/-- **C02**: every history of `add` and `getHash` calls, in any order and with any sizes, runs without
memory error and each `getHash` answers with the FIPS digest of everything added before it. -/
theorem C02_history (s : State) (hs : s.buffer.length = 64) (ops : List Op) (hw : ∀ o ∈ ops, o.Wf) :
    run (reset s) ops = some (digests [] ops) :=
  run_inv ops _ _ (reset_inv s hs) hw

/-- All bytes added by a history. -/
def allBytes : List Op → List Byte
  | [] => []
  | .add _ data :: ops => data ++ allBytes ops
  | .getHash _ :: ops => allBytes ops

theorem digests_last (ops : List Op) (j : Junk) : ∀ m,
    (digests m (ops ++ [.getHash j])).getLast? = some (sha256 (m ++ allBytes ops)) := by
  induction ops with
  | nil => intro m; simp [digests, allBytes]
  | cons o ops ih =>
    intro m
    cases o with
    | add k data => simp [digests, allBytes, ih]
    | getHash k => simp [digests, allBytes, List.getLast?_cons, ih]

/-- **C02**, as in the English statement: the final digest depends only on the concatenation of the
pieces, not on how they were cut or on intermediate `getHash` calls, nor on old memory contents. -/
theorem C02_cut_independent (s t : State) (hs : s.buffer.length = 64) (ht : t.buffer.length = 64)
    (ops ops' : List Op) (hw : ∀ o ∈ ops, o.Wf) (hw' : ∀ o ∈ ops', o.Wf) (j j' : Junk)
    (hj : j.extra.length = 64) (hj' : j'.extra.length = 64) (hsame : allBytes ops = allBytes ops') :
    ∃ ds ds', run (reset s) (ops ++ [.getHash j]) = some ds ∧ run (reset t) (ops' ++ [.getHash j']) = some ds' ∧
      ds.getLast? = ds'.getLast? ∧ ds.getLast?.isSome := by
  have w1 : ∀ o ∈ ops ++ [Op.getHash j], o.Wf := by
    intro o ho
    rcases List.mem_append.1 ho with h | h
    · exact hw o h
    · rw [List.mem_singleton.1 h]; exact hj
  have w2 : ∀ o ∈ ops' ++ [Op.getHash j'], o.Wf := by
    intro o ho
    rcases List.mem_append.1 ho with h | h
    · exact hw' o h
    · rw [List.mem_singleton.1 h]; exact hj'
  refine ⟨_, _, C02_history s hs _ w1, C02_history t ht _ w2, ?_, ?_⟩
  · rw [digests_last, digests_last, hsame]
  · rw [digests_last]; rfl

/-- Non-vacuity of C02: 70 bytes fed as 1 + 0 + 69 bytes with a digest in between. -/
example : ∃ ops : List Op, (∀ o ∈ ops, o.Wf) ∧ (allBytes ops).length = 70 ∧
    (digests [] ops).length = 2 :=
  ⟨[.add ⟨fun _ => 0, []⟩ [1], .getHash ⟨fun _ => 0, List.replicate 64 3⟩, .add ⟨fun _ => 0, []⟩ [],
    .add ⟨fun _ => 0, []⟩ (List.replicate 69 2), .getHash ⟨fun _ => 0, List.replicate 64 3⟩],
   by intro o ho; simp at ho; rcases ho with rfl | rfl | rfl | rfl | rfl <;> simp [Op.Wf],
   by simp [allBytes], by simp [digests]⟩

end Verif.Sha
