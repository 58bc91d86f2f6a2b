import Verif.C.DecodeRawProof
import Verif.Props.Answer
import Verif.Props.LowMem
import Verif.Props.RawFail
import Verif.Props.TextClaim
/-!
# C77, C78: what the text of src/decode.c does to memory

As in Props/Text.lean, the statements are about executions of the text. What is written is described by the specifications that
`C62_decode`, `C67_decode` and `C72_raw_answer` use; the functions of Verif/Model do not occur in it.

The calls of mbedTLS and ed25519 in `l8w8jwt_verify_signature` have the meaning that C/Mbed.lean gives them.
-/

namespace L8w8jwt.C

open Spec

/-- The claims `ds` are in memory from `v` on: five members each, key and value with a NUL behind them, and their lengths. -/
def _root_.L8w8jwt.Spec.ShowsClaims (mem : Blk → Option (List Val)) (v : Val) (ds : List DClaim) : Prop :=
  ∃ i l, v = .ptr (some (.heap i, 0)) ∧ mem (.heap i) = some l ∧ ∀ j d, ds[j]? = some d →
    ∃ kv vv y z, l[5 * j]? = some kv ∧ l[5 * j + 1]? = some (.int d.key.length) ∧ l[5 * j + 2]? = some vv ∧
      l[5 * j + 3]? = some (.int d.value.length) ∧ l[5 * j + 4]? = some (.int d.type) ∧
      Pts globs mem kv (some (d.key ++ 0 :: y)) ∧ Pts globs mem vv (some (d.value ++ 0 :: z))

theorem Views.get {cs : List Claim} {ds : List DClaim} (h : Views cs ds) {j : Nat} {d : DClaim} (hd : ds[j]? = some d) :
    ∃ c, cs[j]? = some c ∧ View c d := by
  induction h generalizing j with
  | nil => simp at hd
  | cons hv _ ih =>
    cases j with
    | zero => simp at hd; subst hd; exact ⟨_, rfl, hv⟩
    | succ j => simpa using ih (by simpa using hd)

theorem showsClaims {mem : Blk → Option (List Val)} {a : ClaimArr} {ds : List DClaim} (h : ClaimsAt mem (ptrVal a.blk) (some a.items))
    (hv : Views a.items ds) : ShowsClaims mem (ptrVal a.blk) ds := by
  obtain ⟨b, o, l, e, hl, -, hc⟩ := h
  cases hb : a.blk with
  | none => rw [hb] at e; cases e
  | some k =>
    rw [hb] at e
    cases e
    refine ⟨k.id, l, rfl, hl, fun j d hd => ?_⟩
    obtain ⟨c, hcj, ⟨i1, y, k1, k2⟩, ⟨i2, z, v1, v2⟩, ty, -⟩ := Views.get hv hd
    obtain ⟨kv, vv, h0, h1, h2, h3, h4, p1, p2, -⟩ := hc j c hcj
    rw [k1] at p1
    rw [v1] at p2
    simp only [Nat.zero_add] at h0 h1 h2 h3 h4
    exact ⟨kv, vv, y, z, h0, by rw [h1, k2], h2, by rw [h3, v2], by rw [h4, ty], p1, p2⟩

/-- Nothing but the objects `os` and new blocks is different. -/
def _root_.L8w8jwt.Spec.OnlyWrites (st st' : St) (os : List Blk) : Prop :=
  st'.fr = st.fr ∧ st'.stk = st.stk ∧ ∀ x, x ∉ os → (∀ j, st.heap.tick ≤ j → x ≠ .heap j) → st'.mem x = st.mem x

/-- The conditions under which the text of the decoding functions is executed: the structure at `P` holds the parameters `p`; the
objects written to, `os`, have one cell each and are different from each other and from those of the parameters. The object that
contains the token has fewer than 2³¹ − 16 bytes, so that `int` can index it, and loops may take enough steps. (The text is
that of a build with or without EdDSA and with or without `L8W8JWT_SMALL_STACK`, as `env` says; see DESIGN.md.) -/
structure DecCall (env : Env) (fuel : Nat) (st : St) (P : Blk) (p : DecParams) (os : List (Option Blk)) : Prop where
  wf : Wf st
  heap : HeapWf st.heap
  outs : OutsAt st.mem os
  params : ParamsAt st.mem os (.ptr (some (P, 0))) (some p)
  garbage : ∀ i, -2147483648 ≤ (env.garbage i).end_ ∧ (env.garbage i).end_ < 2147483648
  size : ∀ m, p.jwt = some m → 2 * m.length + 100 < fuel ∧ m.length + 16 < 2147483648
  typ : p.validateTypLength < fuel

variable {env : Env} {fuel d : Nat} {s : Sched} {st : St} {P : Blk} {p : DecParams} {tok : Bytes}

/-- The text of `l8w8jwt_decode` does what `decode` says, in any run of `decode` that is defined. -/
theorem decode_text {O1 O2 O3 : Option Blk} (c : DecCall env fuel st P p [O1, O2, O3]) {r : DecOut} {h' : Heap}
    (he : decode env (some p) O1.isNone O2.isNone O3.isNone s st.heap = .ok (r, h')) :
    ∃ mem', runFun (cx env fuel (d + 3)) Src.l8w8jwt_decode [.ptr (some (P, 0)), optV O1, optV O2, optV O3] s st =
      .ok (.int r.rc, { st with heap := h', mem := mem' }) ∧ Decoded fuel st O1 O2 O3 r h' mem' := by
  obtain ⟨v, st', e, rfl, mem', rfl, D⟩ := wp_decode env fuel d c.garbage c.wf c.heap c.outs c.params
    (by rintro q m ⟨⟩ hm; exact ⟨(c.size m hm).1, (c.size m hm).2, c.typ⟩) he
  exact ⟨mem', e, D⟩

/-- The same for `l8w8jwt_decode_raw`. -/
theorem decode_raw_text {O1 A1 L1 A2 L2 A3 L3 : Option Blk} (c : DecCall env fuel st P p [O1, A1, L1, A2, L2, A3, L3]) {r : RawOut} {h' : Heap}
    (he : decodeRaw env (some p) O1.isNone (rawArgs A1 L1 A2 L2 A3 L3) s st.heap = .ok (r, h')) :
    ∃ mem', runFun (cx env fuel (d + 3)) Src.l8w8jwt_decode_raw
        [.ptr (some (P, 0)), optV O1, optV A1, optV L1, optV A2, optV L2, optV A3, optV L3] s st =
      .ok (.int r.rc, { st with heap := h', mem := mem' }) ∧ Wrote st.mem mem' O1 (r.validation.map fun v => .int v.toNat) ∧
      RawDone st [O1, A1, L1, A2, L2, A3, L3] A1 L1 A2 L2 A3 L3 r h' mem' := by
  obtain ⟨v, st', e, rfl, mem', rfl, D⟩ := wp_decode_raw env fuel d c.garbage c.wf c.heap c.outs c.params
    (by rintro q m ⟨⟩ hm; exact ⟨(c.size m hm).1, (c.size m hm).2, c.typ⟩) he
  exact ⟨mem', e, D⟩

/-- The same for `l8w8jwt_decode_raw_no_validation`. -/
theorem decode_raw_nv_text {A1 L1 A2 L2 A3 L3 : Option Blk} (c : DecCall env fuel st P p [A1, L1, A2, L2, A3, L3]) {r : RawOut} {h' : Heap}
    (he : decodeRawNoValidation env (some p) (rawArgs A1 L1 A2 L2 A3 L3) s st.heap = .ok (r, h')) :
    ∃ mem', runFun (cx env fuel (d + 3)) Src.l8w8jwt_decode_raw_no_validation
        [.ptr (some (P, 0)), optV A1, optV L1, optV A2, optV L2, optV A3, optV L3] s st =
      .ok (.int r.rc, { st with heap := h', mem := mem' }) ∧
      RawDone st [A1, L1, A2, L2, A3, L3] A1 L1 A2 L2 A3 L3 r h' mem' := by
  obtain ⟨v, st', e, rfl, mem', rfl, D⟩ := wp_decode_nov env fuel d c.wf c.heap c.outs c.params
    (by rintro q m ⟨⟩ hm; have := c.size m hm; omega) he
  exact ⟨mem', e, D⟩

theorem Kept.only {os : List Blk} {h' : Heap} {mem' : Blk → Option (List Val)} (k : Kept (os.map some) st h' mem') :
    OnlyWrites st { st with heap := h', mem := mem' } os :=
  ⟨rfl, rfl, fun x hx hn => k.same x (by simpa using hx) hn⟩

/-! ## `l8w8jwt_decode` -/

/-- **C77** The text of `l8w8jwt_decode` where decoding is defined (`DecDefined`) and no allocation fails: it ends without undefined
behaviour; it returns the code of the specification and stores the validation result of the specification; if the code is that of
success, it stores the address and the number of the claims of the token, in this order, and otherwise neither; and no other object
is changed. -/
theorem C77_decode_text {O1 O2 O3 : Blk} (c : DecCall env fuel st P p [some O1, some O2, some O3]) (hc : CryptoOk env.crypto)
    (hv : validateDecodingParams env (some p) = L8W8JWT_SUCCESS) (ht : TokenMem p tok) (gd : s.good) (hr : VerKeyReadable p)
    (hx : ExpectOk p) (hn : NowOk env.now) (hd : DecDefined env p tok) :
    ∃ rc v ds st', Answer env p tok rc v ds ∧
      runFun (cx env fuel (d + 3)) Src.l8w8jwt_decode [.ptr (some (P, 0)), .ptr (some (O1, 0)), .ptr (some (O2, 0)), .ptr (some (O3, 0))] s st =
        .ok (.int rc, st') ∧ OnlyWrites st st' [O1, O2, O3] ∧ st'.mem O1 = some [.int v.toNat] ∧
      (rc ≠ L8W8JWT_SUCCESS → st'.mem O2 = st.mem O2 ∧ st'.mem O3 = st.mem O3) ∧
      (rc = L8W8JWT_SUCCESS → ∃ w, st'.mem O2 = some [w] ∧ ShowsClaims st'.mem w ds ∧ st'.mem O3 = some [.int ds.length]) := by
  obtain ⟨r, h', rc, v, ds, he, ha, rfl, hrv, hf, hs⟩ := C62_decode (s := s) (h := st.heap) hc hv ht gd hr hx hn hd
  obtain ⟨mem', e, D⟩ := decode_text (d := d) c he
  refine ⟨r.rc, v, ds, _, ha, e, Kept.only (os := [O1, O2, O3]) D.kept, ?_, fun h => ?_, fun h => ?_⟩
  · have := D.validation O1 rfl
    rwa [hrv] at this
  · have h2 := D.claims O2 rfl
    have h3 := D.length O3 rfl
    rw [(hf h).1] at h2
    rw [(hf h).2] at h3
    exact ⟨h2, h3⟩
  · obtain ⟨arr, h1, h2, h3⟩ := hs h
    have g2 := D.claims O2 rfl
    have g3 := D.length O3 rfl
    rw [h1] at g2
    rw [h2] at g3
    exact ⟨_, g2, showsClaims (D.array arr h1).1 h3, g3⟩

/-- **C77** The same whatever allocations fail, in every run that is defined (`C47_decode_defined_partial` says which are): a failure sets
all flags and hands out nothing; success is reported only for tokens for which it is reported when nothing fails, with the same flag of the
signature; the claims handed out are some of those of the token, in order (all of them if growing the array of claims does not fail
or is not necessary), and the other flags are those of the claims handed out. -/
theorem C77_decode_lowmem_text {O1 O2 O3 : Blk} (c : DecCall env fuel st P p [some O1, some O2, some O3]) (hc : CryptoOk env.crypto)
    (hv : validateDecodingParams env (some p) = L8W8JWT_SUCCESS) (ht : TokenMem p tok) (hx : ExpectOk p) (hn : NowOk env.now)
    (t : Tame env s p tok) :
    ∃ (rc : Nat) (st' : St), runFun (cx env fuel (d + 3)) Src.l8w8jwt_decode
          [.ptr (some (P, 0)), .ptr (some (O1, 0)), .ptr (some (O2, 0)), .ptr (some (O3, 0))] s st = .ok (.int rc, st') ∧
      OnlyWrites st st' [O1, O2, O3] ∧
      ((rc ≠ L8W8JWT_SUCCESS ∧ st'.mem O1 = some [.int 0xffffffff] ∧ st'.mem O2 = st.mem O2 ∧ st'.mem O3 = st.mem O3) ∨
       (rc = L8W8JWT_SUCCESS ∧ ∃ v ds es b w, Answer env p tok Code.success v ds ∧ (b = 0#32 ∨ b = 128#32) ∧
         v = b ||| claimFlags (fun x => claimStarting x ds) env.now p ∧ es.Sublist ds ∧ (s.noGrowFail ∨ ds.length ≤ 16 → es = ds) ∧
         st'.mem O1 = some [.int (b ||| claimFlags (fun x => claimStarting x es) env.now p).toNat] ∧
         st'.mem O2 = some [w] ∧ ShowsClaims st'.mem w es ∧ st'.mem O3 = some [.int es.length])) := by
  obtain ⟨r, h', he⟩ := (C47_decode_defined_partial (h := st.heap) hc hv ht t false false false {}).1
  obtain ⟨mem', e, D⟩ := decode_text (d := d) c he
  refine ⟨r.rc, _, e, Kept.only (os := [O1, O2, O3]) D.kept, ?_⟩
  have g1 := D.validation O1 rfl
  have g2 := D.claims O2 rfl
  have g3 := D.length O3 rfl
  rcases C67_decode hc hv ht hx hn he with ⟨a1, a2, a3, a4⟩ | ⟨a1, v, ds, arr, es, b, b1, b2, b3, b4, b5, b6, b7, b8, b9⟩
  · rw [a2] at g1
    rw [a3] at g2
    rw [a4] at g3
    exact Or.inl ⟨a1, g1, g2, g3⟩
  · rw [b9] at g1
    rw [b4] at g2
    rw [b5] at g3
    exact Or.inr ⟨a1, v, ds, es, b, _, b1, b2, b3, b7, b8, g1, g2, showsClaims (D.array arr b4).1 b6, g3⟩

/-- **C77** Whoever releases the claims handed out releases everything: the text of `l8w8jwt_free_claims`, given what the text of
`l8w8jwt_decode` stored, ends without undefined behaviour; afterwards the live blocks are those before decoding, and objects that
existed then are as they were, except for the three written to. (As in C49, the token is not one of those for which blocks are lost, and
there are no more than 16 claims if growing an array may fail.) -/
theorem C77_decode_free_text {O1 O2 O3 : Blk} (c : DecCall env fuel st P p [some O1, some O2, some O3]) (hc : CryptoOk env.crypto)
    (hv : validateDecodingParams env (some p) = L8W8JWT_SUCCESS) (ht : TokenMem p tok) (t : Tame env s p tok)
    (g : s.noGrowFail ∨ FewClaims env tok) (hl : ¬ LeakyToken tok) :
    ∃ (rc : Nat) (st' : St), runFun (cx env fuel (d + 3)) Src.l8w8jwt_decode
          [.ptr (some (P, 0)), .ptr (some (O1, 0)), .ptr (some (O2, 0)), .ptr (some (O3, 0))] s st = .ok (.int rc, st') ∧
      (rc ≠ L8W8JWT_SUCCESS → st'.heap.live.Perm st.heap.live) ∧
      (rc = L8W8JWT_SUCCESS → ∃ w n st2, st'.mem O2 = some [w] ∧ st'.mem O3 = some [n] ∧
        runFun (cx env fuel (d + 1)) Src.l8w8jwt_free_claims [w, n] s st' = .ok (.undef, st2) ∧
        OnlyWrites st st2 [O1, O2, O3] ∧ st2.heap.live.Perm st.heap.live) := by
  obtain ⟨r, h', he⟩ := (C47_decode_defined_partial (h := st.heap) hc hv ht t false false false {}).1
  obtain ⟨mem', e, D⟩ := decode_text (d := d) c he
  refine ⟨r.rc, _, e, fun hf => ?_, fun hs => ?_⟩
  · have := C49_no_leak_partial hc ht g hl he
    rw [outIds, (C32_fail_closed he hf).1] at this
    exact this
  · cases hcl : r.claims with
    | none =>
      exfalso
      rcases decode_returns he with ⟨h1, h2, -, -⟩ | ⟨p1, D1, g1, -, -, -, -, -, rfl⟩
      · exact h2 hs
      · have h0 : D1.rc = L8W8JWT_SUCCESS := by
          unfold decOut at hs
          split at hs <;> exact hs
        rw [decOut, if_neg (by simp [h0])] at hcl
        cases hcl
    | some arr =>
      obtain ⟨hn, h2, hfr, hp⟩ := C49_free_claims_partial hc ht g hl he hcl
      have g2 := D.claims O2 rfl
      have g3 := D.length O3 rfl
      rw [hcl] at g2
      rw [hn] at g3
      obtain ⟨-, own, l1, l2, i1, i2⟩ := D.array arr hcl
      have ef := free_claims_text env fuel d s { st with heap := h', mem := mem' } ⟨D.kept.stack, D.kept.free⟩ arr arr.items.length own
        D.kept.heap.nodup (by omega) l1 h2 hfr
      refine ⟨_, _, _, g2, g3, ef, ⟨rfl, rfl, fun x hx hy => ?_⟩, hp⟩
      have new : ∀ b, arr.blk = some b → kill (ownedIds (arr.items.take arr.items.length) ++ [b.id]) mem' x = mem' x := fun b hb => by
        cases x with
        | heap i =>
          simp only [kill]
          rw [if_neg]
          simp only [List.mem_append, List.mem_singleton, not_or, List.take_length]
          refine ⟨fun hi => ?_, fun hi => hy _ (i1 b hb) (by rw [hi])⟩
          simp only [ownedIds, List.mem_flatMap, List.map_append, List.mem_append, List.mem_map, Option.mem_toList] at hi
          obtain ⟨c, hc, ⟨q, hq, rfl⟩ | ⟨q, hq, rfl⟩⟩ := hi
          · exact hy _ (i2 c hc q (Or.inl hq)) rfl
          · exact hy _ (i2 c hc q (Or.inr hq)) rfl
        | _ => rfl
      have old := D.kept.same x (by simpa using hx) hy
      show (match arr.blk with | none => mem' | some b => kill (ownedIds (arr.items.take arr.items.length) ++ [b.id]) mem') x = st.mem x
      cases hb : arr.blk with
      | none => exact old
      | some b => exact (new b hb).trans old

/-! ## The raw functions -/

/-- What is in the objects behind an out argument and its length afterwards: NULL and 0, or the address of a block that starts with
the octets, and their number. Nothing is written if the argument is NULL. -/
def _root_.L8w8jwt.Spec.HandedAt (mem mem' : Blk → Option (List Val)) (A L : Option Blk) (x : Option Bytes) : Prop :=
  match A with
  | none => ∀ b, L = some b → mem' b = mem b
  | some a => ∃ l, L = some l ∧
    match x with
    | none => mem' a = some [.ptr none] ∧ mem' l = some [.int 0]
    | some o => ∃ i c, mem' a = some [.ptr (some (.heap i, 0))] ∧ mem' l = some [.int o.length] ∧ mem' (.heap i) = some c ∧
      c.take o.length = cells o

theorem handedAt {mem mem' : Blk → Option (List Val)} {A L : Option Blk} {o : Option (Ptr × Nat)} {x : Option Bytes} (hb : (!A.isNone && L.isNone) = false)
    (h : Handed A.isNone o x) (w1 : Wrote mem mem' A (o.map fun q => ptrVal q.1)) (w2 : Wrote mem mem' L (o.map fun q => .int q.2))
    (hd : ∀ q n, o = some (q, n) → ∀ b, q = some b → mem' (.heap b.id) = some (cells b.mem)) : HandedAt mem mem' A L x := by
  cases A with
  | none =>
    cases (h : o = none)
    exact fun b hb => w2 b hb
  | some a =>
    cases L with
    | none => simp at hb
    | some l =>
      refine ⟨l, rfl, ?_⟩
      cases x with
      | none =>
        cases (h : o = some (none, 0))
        exact ⟨w1 a rfl, w2 l rfl⟩
      | some q =>
        obtain ⟨id, m, e, hm⟩ := (h : ∃ id mem, o = some (some ⟨id, mem⟩, q.length) ∧ mem.take q.length = q)
        subst e
        refine ⟨id, cells m, w1 a rfl, w2 l rfl, hd _ _ rfl ⟨id, m⟩ rfl, ?_⟩
        rw [cells, ← List.map_take, hm]
        rfl

/-- The out arguments of the raw functions fit: who asks for a segment asks for its length. -/
def _root_.L8w8jwt.Spec.Paired (A L : Option Blk) : Prop := A ≠ none → L ≠ none

theorem paired_bad {A1 L1 A2 L2 A3 L3 : Option Blk} (h1 : Paired A1 L1) (h2 : Paired A2 L2) (h3 : Paired A3 L3) :
    (!A1.isNone && L1.isNone) = false ∧ (!A2.isNone && L2.isNone) = false ∧ (!A3.isNone && L3.isNone) = false ∧
    (rawArgs A1 L1 A2 L2 A3 L3).bad = false := by
  have k : ∀ {A L : Option Blk}, Paired A L → (!A.isNone && L.isNone) = false := fun {A L} h => by
    cases A with
    | none => rfl
    | some a =>
      cases L with
      | none => exact absurd rfl (h (by simp))
      | some l => rfl
  refine ⟨k h1, k h2, k h3, ?_⟩
  unfold RawArgs.bad
  rw [show (!(rawArgs A1 L1 A2 L2 A3 L3).header && (rawArgs A1 L1 A2 L2 A3 L3).headerLength) = false from k h1,
    show (!(rawArgs A1 L1 A2 L2 A3 L3).payload && (rawArgs A1 L1 A2 L2 A3 L3).payloadLength) = false from k h2,
    show (!(rawArgs A1 L1 A2 L2 A3 L3).signature && (rawArgs A1 L1 A2 L2 A3 L3).signatureLength) = false from k h3]
  rfl

/-- **C78** The text of `l8w8jwt_decode_raw` where decoding is defined and no allocation fails: it ends without undefined behaviour, with
the return code and the validation result of the specification; the segments before the first one that cannot be decoded are handed
out, whatever the return code; and no other object is changed. -/
theorem C78_raw_text {O1 : Blk} {A1 L1 A2 L2 A3 L3 : Option Blk} (c : DecCall env fuel st P p [some O1, A1, L1, A2, L2, A3, L3])
    (hc : CryptoOk env.crypto) (hv : validateDecodingParams env (some p) = L8W8JWT_SUCCESS) (ht : TokenMem p tok) (gd : s.good)
    (hr : VerKeyReadable p) (hx : ExpectOk p) (hn : NowOk env.now) (hd : DecDefined env p tok) (h1 : Paired A1 L1) (h2 : Paired A2 L2)
    (h3 : Paired A3 L3) :
    ∃ rc v ds x y z st', Answer env p tok rc v ds ∧ HandsOut p.alg tok x y z ∧
      runFun (cx env fuel (d + 3)) Src.l8w8jwt_decode_raw
          [.ptr (some (P, 0)), .ptr (some (O1, 0)), optV A1, optV L1, optV A2, optV L2, optV A3, optV L3] s st = .ok (.int rc, st') ∧
      st'.mem O1 = some [.int v.toNat] ∧ HandedAt st.mem st'.mem A1 L1 x ∧ HandedAt st.mem st'.mem A2 L2 y ∧
      HandedAt st.mem st'.mem A3 L3 z ∧
      ∀ b, some b ∉ [some O1, A1, L1, A2, L2, A3, L3] → (∀ j, st.heap.tick ≤ j → b ≠ .heap j) → st'.mem b = st.mem b := by
  obtain ⟨b1, b2, b3, bad⟩ := paired_bad h1 h2 h3
  obtain ⟨r, h', rc, v, ds, x, y, z, he, ha, hz, rfl, hrv, q1, q2, q3⟩ := C72_raw_answer (s := s) (h := st.heap) hc hv ht gd hr hx hn hd bad
  obtain ⟨mem', e, w, D⟩ := decode_raw_text (d := d) (O1 := some O1) c he
  refine ⟨r.rc, v, ds, x, y, z, _, ha, hz, e, ?_, ?_, ?_, ?_, D.kept.same⟩
  · have := w O1 rfl
    rwa [hrv] at this
  · exact handedAt b1 q1 D.header D.headerLength fun q n hq => D.bytes q n (Or.inl hq)
  · exact handedAt b2 q2 D.payload D.payloadLength fun q n hq => D.bytes q n (Or.inr (Or.inl hq))
  · exact handedAt b3 q3 D.signature D.signatureLength fun q n hq => D.bytes q n (Or.inr (Or.inr hq))

/-- **C78** The same for the text of `l8w8jwt_decode_raw_no_validation`; there is no validation result, and execution is defined for every
token. -/
theorem C78_raw_nv_text {A1 L1 A2 L2 A3 L3 : Option Blk} (c : DecCall env fuel st P p [A1, L1, A2, L2, A3, L3])
    (hv : validateDecodingParams env (some p) = L8W8JWT_SUCCESS) (ht : TokenMem p tok) (g : s.noAllocFail) (h1 : Paired A1 L1)
    (h2 : Paired A2 L2) (h3 : Paired A3 L3) (hn : A1 ≠ none ∨ A2 ≠ none ∨ A3 ≠ none) :
    ∃ rc x y z st', SegCode p.alg tok rc ∧ HandsOut p.alg tok x y z ∧
      runFun (cx env fuel (d + 3)) Src.l8w8jwt_decode_raw_no_validation
          [.ptr (some (P, 0)), optV A1, optV L1, optV A2, optV L2, optV A3, optV L3] s st = .ok (.int rc, st') ∧
      HandedAt st.mem st'.mem A1 L1 x ∧ HandedAt st.mem st'.mem A2 L2 y ∧ HandedAt st.mem st'.mem A3 L3 z ∧
      ∀ b, some b ∉ [A1, L1, A2, L2, A3, L3] → (∀ j, st.heap.tick ≤ j → b ≠ .heap j) → st'.mem b = st.mem b := by
  obtain ⟨b1, b2, b3, bad⟩ := paired_bad h1 h2 h3
  have hne : ((rawArgs A1 L1 A2 L2 A3 L3).header && (rawArgs A1 L1 A2 L2 A3 L3).payload && (rawArgs A1 L1 A2 L2 A3 L3).signature) = false := by
    show (A1.isNone && A2.isNone && A3.isNone) = false
    cases A1 <;> cases A2 <;> cases A3 <;> simp_all
  obtain ⟨r, h', x, y, z, he, ha, hz, -, q1, q2, q3⟩ := C72_raw_nv_answer (s := s) (h := st.heap) hv ht g bad hne
  obtain ⟨mem', e, D⟩ := decode_raw_nv_text (d := d) c he
  refine ⟨r.rc, x, y, z, _, ha, hz, e, ?_, ?_, ?_, D.kept.same⟩
  · exact handedAt b1 q1 D.header D.headerLength fun q n hq => D.bytes q n (Or.inl hq)
  · exact handedAt b2 q2 D.payload D.payloadLength fun q n hq => D.bytes q n (Or.inr (Or.inl hq))
  · exact handedAt b3 q3 D.signature D.signatureLength fun q n hq => D.bytes q n (Or.inr (Or.inr hq))

/-- **C78** The text of `l8w8jwt_decoding_params_init`: afterwards all 21 members are 0, except that the algorithm is −2, and nothing else
has changed. NULL is ignored. -/
theorem C78_params_init_text (hw : Wf st) :
    runFun (cx env fuel d) Src.l8w8jwt_decoding_params_init [.ptr none] s st = .ok (.undef, st) ∧
    ∀ (P : Blk) (l : List Val), P.own = true → st.mem P = some l → l.length = 21 →
      runFun (cx env fuel d) Src.l8w8jwt_decoding_params_init [.ptr (some (P, 0))] s st =
        .ok (.undef, { st with mem := upd st.mem P (some ((List.replicate 21 (.int 0)).set 2 (.int (-2)))) }) :=
  ⟨params_init_null env fuel d s st hw, fun P l hP h hl => params_init_text env fuel d s st hw P l hP h hl⟩

/-! ## Examples -/

/-- A token, the key, parameters as `l8w8jwt_decoding_params_init` leaves them with token, algorithm and key filled in, and out
arguments. -/
def exTok (tok : Bytes) : St where
  fr := []
  heap := heap0
  mem := fun b => match b with
    | .stack 0 => some (cells (tok ++ [0]))
    | .stack 1 => some (cells (str "secret"))
    | .stack 2 => some [exPtr 0 0, .int tok.length, .int 0, .int 0, .int 0, .int 0, .int 0, .int 0, .int 0, .int 0, .int 0, .int 0, .int 0, .int 0,
        .int 0, .int 0, .int 0, exPtr 1 0, .int 6, .int 0, .int 0]
    | .stack 3 | .stack 4 | .stack 5 | .stack 6 | .stack 7 | .stack 8 | .stack 9 => some [.undef]
    | _ => none
  stk := 10

/-- Return value, the out arguments and the first ten cells of the live blocks. -/
def exOut (r : Except Err (Val × St)) (outs : List Nat) : Option (Val × List (Option (List Val)) × List (List Val)) :=
  match r with
  | .error _ => none
  | .ok (v, st) => some (v, outs.map fun i => st.mem (.stack i), st.heap.live.reverse.filterMap fun i => (st.mem (.heap i)).map (List.take 10))

/-- The members of header and payload are handed out, in this order. -/
example : exOut (runFun (cx toy 400 3) Src.l8w8jwt_decode [exPtr 2 0, exPtr 3 0, exPtr 4 0, exPtr 5 0] calm
    (exTok (mkTok hdr1 pay1 (toyMac hdr1 pay1)))) [3, 4, 5] =
    some (.int 0, [some [.int 0], some [.ptr (some (.heap 0, 0))], some [.int 2]],
      [[.ptr (some (.heap 4, 0)), .int 3, .ptr (some (.heap 5, 0)), .int 5, .int 0, .ptr (some (.heap 7, 0)), .int 3, .ptr (some (.heap 8, 0)), .int 1, .int 0],
       cells (str "alg\x00"), cells (str "HS256\x00"), cells (str "sub\x00"), cells (str "a\x00")]) := by
  decide +kernel

/-- If the payload has another signature, the flag of the signature is stored. -/
example : (exOut (runFun (cx toy 400 3) Src.l8w8jwt_decode [exPtr 2 0, exPtr 3 0, .ptr none, .ptr none] calm
    (exTok (mkTok hdr1 "{\"sub\":\"b\"}" (toyMac hdr1 pay1)))) [3, 4, 5]) =
    some (.int 0, [some [.int 128], some [.undef], some [.undef]], []) := by
  decide +kernel

/-- A token with an empty signature: header and payload are handed out although decoding fails (C72). -/
example : (exOut (runFun (cx toy 400 3) Src.l8w8jwt_decode_raw [exPtr 2 0, exPtr 3 0, exPtr 4 0, exPtr 5 0, exPtr 6 0, exPtr 7 0, exPtr 8 0, exPtr 9 0]
    calm (exTok (str "YQ.Yg."))) [3, 4, 5, 6, 7, 8, 9]) =
    some (.int L8W8JWT_BASE64_FAILURE, [some [.int 0xffffffff], some [.ptr (some (.heap 1, 0))], some [.int 1],
      some [.ptr (some (.heap 2, 0))], some [.int 1], some [.ptr none], some [.int 0]], [cells (97 :: List.replicate 9 0), cells (98 :: List.replicate 9 0)]) := by
  decide +kernel

/-- The theorems apply to these calls. -/
example : DecCall toy 400 (exTok (mkTok hdr1 pay1 (toyMac hdr1 pay1))) (.stack 2) (toyDec (mkTok hdr1 pay1 (toyMac hdr1 pay1)))
    [some (.stack 3), some (.stack 4), some (.stack 5)] where
  wf := ⟨fun j hj => by
    have hj : 10 ≤ j := hj
    simp only [exTok]
    split <;> rename_i h <;> first | rfl | (injection h with h; omega), fun _ _ => rfl⟩
  heap := ⟨List.nodup_nil, by simp [exTok, heap0]⟩
  outs := ⟨fun b hb => by simp at hb; rcases hb with rfl | rfl | rfl <;> exact ⟨rfl, _, rfl⟩, by simp⟩
  params := by
    refine ⟨.stack 2, ⟨exPtr 0 0, .int 0, .int 0, .int 0, .int 0, exPtr 1 0, .int 0, 0, 0, 0⟩, rfl, ?_, ?_⟩
    · refine ⟨rfl, rfl, ⟨.stack 0, 0, _, rfl, rfl, by decide +kernel, by decide +kernel⟩, rfl, rfl, rfl, rfl,
        ⟨.stack 1, 0, _, rfl, rfl, by decide +kernel, by decide +kernel⟩, rfl, ?_, ?_, ?_, ?_, ?_, ?_, ?_, ?_, ?_, ?_, ?_⟩ <;> decide +kernel
    · intro b hb
      simp only [Uses, exPtr, Val.blk, Option.some.injEq, reduceCtorEq, false_or, or_false] at hb
      rcases hb with rfl | rfl | rfl <;> simp
  garbage := fun _ => by simp [toy]
  size := fun m hm => by
    cases hm
    decide +kernel
  typ := by decide

end L8w8jwt.C
