import Verif.C.Lemmas
import Verif.C.Mbed
/-!
# Linking the functions

`cx env fuel n` is the context in which a function runs whose calls of other functions of /repo/src nest at most `n` deep
(there is no recursion in /repo/src). The number of iterations of each loop is bounded by `fuel`.
-/

namespace L8w8jwt.C

open Src

/-- The `static` tables of src/base64.c and src/claim.c. -/
def globs (g : String) : Option (List Val) := Src.globals.lookup g

/-- Context for library functions. -/
def lctx (env : Env) : Ctx where
  cs := env.charSigned
  fuel := 0
  glob := globs
  call := fun _ _ => X.fail .stuck
  garb := fun _ => .undef

/-- Functions that are not in /repo/src. -/
def lib (env : Env) (f : String) (args : List Val) : X Val :=
  match f, args with
  | "l8w8jwt_time", [_] => pure (.int env.now)
  | "checknum", [p, .int n] => do
    let b ← bytesAt (lctx env) p
    let t ← X.res (rdN b n.toNat)
    pure (.int (env.checknum t))
  | "jsmn_init", [p] => xJsmnInit (lctx env) p
  | "jsmn_parse", [p, js, .int n, toks, .int k] => xJsmnParse (lctx env) p js n toks k
  | _, _ => libc (mbed env.crypto (lctx env)) (lctx env) f args

/-- The uninitialised slots of the token array. -/
def garbCell (env : Env) (k : Nat) : Val := (tokCells (env.garbage (k / 4))).getD (k % 4) .undef

/-- The one of the four builds: `L8W8JWT_ENABLE_EDDSA`, `L8W8JWT_SMALL_STACK`. -/
def pick (ed ss : Bool) (a b c e : CFun) : CFun := if ss then (if ed then c else e) else if ed then a else b

/-- The functions of /repo/src, in a build with EdDSA or without it, with `L8W8JWT_SMALL_STACK` or without it. Three functions differ; the other ones are the same (`units_same`). -/
def prog (ed ss : Bool) : String → Option CFun
  | "l8w8jwt_hexstr2bin" => some l8w8jwt_hexstr2bin
  | "l8w8jwt_strncmpic" => some l8w8jwt_strncmpic
  | "l8w8jwt_base64_encode" => some l8w8jwt_base64_encode
  | "l8w8jwt_base64_decode" => some l8w8jwt_base64_decode
  | "l8w8jwt_free" => some l8w8jwt_free
  | "l8w8jwt_free_claims" => some l8w8jwt_free_claims
  | "l8w8jwt_escape_claim_string" => some l8w8jwt_escape_claim_string
  | "l8w8jwt_write_claims" => some l8w8jwt_write_claims
  | "l8w8jwt_get_claim" => some l8w8jwt_get_claim
  | "l8w8jwt_unescape_string" => some l8w8jwt_unescape_string
  | "l8w8jwt_unescape_claim" => some l8w8jwt_unescape_claim
  | "l8w8jwt_decode_segments" => some l8w8jwt_decode_segments
  | "l8w8jwt_parse_claims" => some l8w8jwt_parse_claims
  | "l8w8jwt_validate_claims" => some l8w8jwt_validate_claims
  | "l8w8jwt_verify_signature" => some (pick ed ss l8w8jwt_verify_signature Src0.l8w8jwt_verify_signature SrcS.l8w8jwt_verify_signature SrcS0.l8w8jwt_verify_signature)
  | "l8w8jwt_decoding_params_init" => some l8w8jwt_decoding_params_init
  | "l8w8jwt_validate_decoding_params" => some (if ed then l8w8jwt_validate_decoding_params else Src0.l8w8jwt_validate_decoding_params)
  | "l8w8jwt_decode" => some l8w8jwt_decode
  | "l8w8jwt_decode_raw" => some l8w8jwt_decode_raw
  | "l8w8jwt_decode_raw_no_validation" => some l8w8jwt_decode_raw_no_validation
  | "md_info_from_alg" => some md_info_from_alg
  | "encode_c_md_info_from_alg" => some encode_c_md_info_from_alg
  | "write_header_and_payload" => some write_header_and_payload
  | "write_signature" => some (pick ed ss write_signature Src0.write_signature SrcS.write_signature SrcS0.write_signature)
  | "write_token" => some write_token
  | "l8w8jwt_encoding_params_init" => some l8w8jwt_encoding_params_init
  | "l8w8jwt_validate_encoding_params" => some l8w8jwt_validate_encoding_params
  | "l8w8jwt_encode" => some l8w8jwt_encode
  | "l8w8jwt_get_version_number" => some l8w8jwt_get_version_number
  | "l8w8jwt_get_version_string" => some l8w8jwt_get_version_string
  | _ => none

/-- The two builds have the same functions and tables otherwise. -/
theorem units_same :
    [Src0.l8w8jwt_hexstr2bin, Src0.l8w8jwt_strncmpic, Src0.l8w8jwt_base64_encode, Src0.l8w8jwt_base64_decode,
     Src0.l8w8jwt_free, Src0.l8w8jwt_free_claims, Src0.l8w8jwt_escape_claim_string, Src0.l8w8jwt_write_claims,
     Src0.l8w8jwt_get_claim, Src0.l8w8jwt_unescape_string, Src0.l8w8jwt_unescape_claim, Src0.l8w8jwt_decode_segments,
     Src0.l8w8jwt_parse_claims, Src0.l8w8jwt_validate_claims, Src0.l8w8jwt_decoding_params_init, Src0.l8w8jwt_decode,
     Src0.l8w8jwt_decode_raw, Src0.l8w8jwt_decode_raw_no_validation, Src0.md_info_from_alg, Src0.encode_c_md_info_from_alg,
     Src0.write_header_and_payload, Src0.write_token, Src0.l8w8jwt_encoding_params_init, Src0.l8w8jwt_validate_encoding_params,
     Src0.l8w8jwt_encode, Src0.l8w8jwt_get_version_number, Src0.l8w8jwt_get_version_string] =
    [Src.l8w8jwt_hexstr2bin, Src.l8w8jwt_strncmpic, Src.l8w8jwt_base64_encode, Src.l8w8jwt_base64_decode,
     Src.l8w8jwt_free, Src.l8w8jwt_free_claims, Src.l8w8jwt_escape_claim_string, Src.l8w8jwt_write_claims,
     Src.l8w8jwt_get_claim, Src.l8w8jwt_unescape_string, Src.l8w8jwt_unescape_claim, Src.l8w8jwt_decode_segments,
     Src.l8w8jwt_parse_claims, Src.l8w8jwt_validate_claims, Src.l8w8jwt_decoding_params_init, Src.l8w8jwt_decode,
     Src.l8w8jwt_decode_raw, Src.l8w8jwt_decode_raw_no_validation, Src.md_info_from_alg, Src.encode_c_md_info_from_alg,
     Src.write_header_and_payload, Src.write_token, Src.l8w8jwt_encoding_params_init, Src.l8w8jwt_validate_encoding_params,
     Src.l8w8jwt_encode, Src.l8w8jwt_get_version_number, Src.l8w8jwt_get_version_string] ∧ Src0.globals = Src.globals :=
  ⟨rfl, rfl⟩

/-- With `L8W8JWT_SMALL_STACK` only `l8w8jwt_verify_signature` and `write_signature` are different. -/
theorem units_small :
    [SrcS.l8w8jwt_validate_decoding_params, SrcS.l8w8jwt_hexstr2bin, SrcS.l8w8jwt_strncmpic, SrcS.l8w8jwt_base64_encode, SrcS.l8w8jwt_base64_decode,
     SrcS.l8w8jwt_free, SrcS.l8w8jwt_free_claims, SrcS.l8w8jwt_escape_claim_string, SrcS.l8w8jwt_write_claims,
     SrcS.l8w8jwt_get_claim, SrcS.l8w8jwt_unescape_string, SrcS.l8w8jwt_unescape_claim, SrcS.l8w8jwt_decode_segments,
     SrcS.l8w8jwt_parse_claims, SrcS.l8w8jwt_validate_claims, SrcS.l8w8jwt_decoding_params_init, SrcS.l8w8jwt_decode,
     SrcS.l8w8jwt_decode_raw, SrcS.l8w8jwt_decode_raw_no_validation, SrcS.md_info_from_alg, SrcS.encode_c_md_info_from_alg,
     SrcS.write_header_and_payload, SrcS.write_token, SrcS.l8w8jwt_encoding_params_init, SrcS.l8w8jwt_validate_encoding_params,
     SrcS.l8w8jwt_encode, SrcS.l8w8jwt_get_version_number, SrcS.l8w8jwt_get_version_string] =
    [Src.l8w8jwt_validate_decoding_params, Src.l8w8jwt_hexstr2bin, Src.l8w8jwt_strncmpic, Src.l8w8jwt_base64_encode, Src.l8w8jwt_base64_decode,
     Src.l8w8jwt_free, Src.l8w8jwt_free_claims, Src.l8w8jwt_escape_claim_string, Src.l8w8jwt_write_claims,
     Src.l8w8jwt_get_claim, Src.l8w8jwt_unescape_string, Src.l8w8jwt_unescape_claim, Src.l8w8jwt_decode_segments,
     Src.l8w8jwt_parse_claims, Src.l8w8jwt_validate_claims, Src.l8w8jwt_decoding_params_init, Src.l8w8jwt_decode,
     Src.l8w8jwt_decode_raw, Src.l8w8jwt_decode_raw_no_validation, Src.md_info_from_alg, Src.encode_c_md_info_from_alg,
     Src.write_header_and_payload, Src.write_token, Src.l8w8jwt_encoding_params_init, Src.l8w8jwt_validate_encoding_params,
     Src.l8w8jwt_encode, Src.l8w8jwt_get_version_number, Src.l8w8jwt_get_version_string] ∧ SrcS.globals = Src.globals :=
  ⟨rfl, rfl⟩

/-- The same without EdDSA: with `L8W8JWT_SMALL_STACK` only `l8w8jwt_verify_signature` and `write_signature` are different. -/
theorem units_small0 :
    [SrcS0.l8w8jwt_validate_decoding_params, SrcS0.l8w8jwt_hexstr2bin, SrcS0.l8w8jwt_strncmpic, SrcS0.l8w8jwt_base64_encode, SrcS0.l8w8jwt_base64_decode,
     SrcS0.l8w8jwt_free, SrcS0.l8w8jwt_free_claims, SrcS0.l8w8jwt_escape_claim_string, SrcS0.l8w8jwt_write_claims,
     SrcS0.l8w8jwt_get_claim, SrcS0.l8w8jwt_unescape_string, SrcS0.l8w8jwt_unescape_claim, SrcS0.l8w8jwt_decode_segments,
     SrcS0.l8w8jwt_parse_claims, SrcS0.l8w8jwt_validate_claims, SrcS0.l8w8jwt_decoding_params_init, SrcS0.l8w8jwt_decode,
     SrcS0.l8w8jwt_decode_raw, SrcS0.l8w8jwt_decode_raw_no_validation, SrcS0.md_info_from_alg, SrcS0.encode_c_md_info_from_alg,
     SrcS0.write_header_and_payload, SrcS0.write_token, SrcS0.l8w8jwt_encoding_params_init, SrcS0.l8w8jwt_validate_encoding_params,
     SrcS0.l8w8jwt_encode, SrcS0.l8w8jwt_get_version_number, SrcS0.l8w8jwt_get_version_string] =
    [Src0.l8w8jwt_validate_decoding_params, Src0.l8w8jwt_hexstr2bin, Src0.l8w8jwt_strncmpic, Src0.l8w8jwt_base64_encode, Src0.l8w8jwt_base64_decode,
     Src0.l8w8jwt_free, Src0.l8w8jwt_free_claims, Src0.l8w8jwt_escape_claim_string, Src0.l8w8jwt_write_claims,
     Src0.l8w8jwt_get_claim, Src0.l8w8jwt_unescape_string, Src0.l8w8jwt_unescape_claim, Src0.l8w8jwt_decode_segments,
     Src0.l8w8jwt_parse_claims, Src0.l8w8jwt_validate_claims, Src0.l8w8jwt_decoding_params_init, Src0.l8w8jwt_decode,
     Src0.l8w8jwt_decode_raw, Src0.l8w8jwt_decode_raw_no_validation, Src0.md_info_from_alg, Src0.encode_c_md_info_from_alg,
     Src0.write_header_and_payload, Src0.write_token, Src0.l8w8jwt_encoding_params_init, Src0.l8w8jwt_validate_encoding_params,
     Src0.l8w8jwt_encode, Src0.l8w8jwt_get_version_number, Src0.l8w8jwt_get_version_string] ∧ SrcS0.globals = Src0.globals :=
  ⟨rfl, rfl⟩

/-- Calls nested at most `n` deep. -/
def calls (env : Env) (fuel : Nat) : Nat → String → List Val → X Val
  | 0 => lib env
  | n + 1 => fun f args =>
    match prog env.eddsa env.smallStack f with
    | some fn => runFun { cs := env.charSigned, fuel := fuel, glob := globs, call := calls env fuel n, garb := garbCell env } fn args
    | none => lib env f args

/-- The context for a call depth of `n`. -/
def cx (env : Env) (fuel n : Nat) : Ctx where
  cs := env.charSigned
  fuel := fuel
  glob := globs
  call := calls env fuel n
  garb := garbCell env

theorem cx_cs (env : Env) (fuel n : Nat) : (cx env fuel n).cs = env.charSigned := rfl
theorem cx_fuel (env : Env) (fuel n : Nat) : (cx env fuel n).fuel = fuel := rfl
theorem cx_lib (env : Env) (fuel n : Nat) {f : String} (h : prog env.eddsa env.smallStack f = none) (args : List Val) :
    (cx env fuel n).call f args = lib env f args := by
  cases n with
  | zero => rfl
  | succ n => simp only [cx, calls, h]
theorem cx_fun (env : Env) (fuel n : Nat) {f : String} {fn : CFun} (h : prog env.eddsa env.smallStack f = some fn) (args : List Val) :
    (cx env fuel (n + 1)).call f args = runFun (cx env fuel n) fn args := by
  simp only [cx, calls, h]

theorem call_tolower (env : Env) (fuel n : Nat) (v : Int) (s : Sched) (st : St) (Q : Val → St → Prop) :
    WP ((cx env fuel n).call "tolower" [.int v]) s st Q = ∃ r, tolower v = .ok r ∧ Q (.int r) st := by
  rw [cx_lib _ _ _ rfl]
  exact libc_tolower (mbed env.crypto (lctx env)) (lctx env) _ _ _ _

/-- Overwrite the cells from offset `o` on. -/
def poke (l : List Val) (o : Nat) (w : List Val) : List Val := l.take o ++ w ++ l.drop (o + w.length)

theorem poke_nil (l : List Val) (o : Nat) : poke l o [] = l := by simp [poke]

theorem poke_length {l : List Val} {o : Nat} {w : List Val} (h : o + w.length ≤ l.length) : (poke l o w).length = l.length := by
  simp [poke]
  omega

theorem poke_snoc {l : List Val} {o : Nat} {w : List Val} (v : Val) (h : o + w.length < l.length) :
    (poke l o w).set (o + w.length) v = poke l o (w ++ [v]) := by
  simp only [poke]
  have hl : (l.take o ++ w).length = o + w.length := by simp; omega
  rw [List.set_append_right _ _ (by omega), hl, Nat.sub_self]
  have : l.drop (o + w.length) = l[o + w.length] :: l.drop (o + w.length + 1) := List.drop_eq_getElem_cons h
  rw [this]
  simp [List.append_assoc, Nat.add_assoc]

theorem poke_one {l : List Val} {o : Nat} (v : Val) (h : o < l.length) : poke l o [v] = l.set o v := by
  have := poke_snoc (l := l) (o := o) (w := []) v (by simpa using h)
  simpa [poke_nil] using this.symm

theorem cells_append (a b : Bytes) : cells (a ++ b) = cells a ++ cells b := by simp [cells]

/-- Writing the next byte. -/
theorem wp_store_poke {c : Ctx} {s : Sched} {st : St} {b : Blk} {l : List Val} {o : Nat} {w : Bytes} {x : UInt8} {p : Int}
    {v : Val} {Q : Unit → St → Prop} (hb : b.own = true) (h : st.mem b = some (poke l o (cells w)))
    (hp : p = ((o + w.length : Nat) : Int)) (hv : v = .int x.toNat) (hl : o + w.length < l.length)
    (hq : Q () { st with mem := upd st.mem b (some (poke l o (cells (w ++ [x])))) }) :
    WP (storeV c (.int .u8) (.ptr (some (b, p))) v) s st Q := by
  subst hp hv
  refine wp_storeV hb h (w := .int x.toNat) (by omega) ?_ rfl ?_
  · rw [poke_length (by rw [cells_length]; omega)]
    rw [Int.toNat_natCast]
    exact hl
  · have : (poke l o (cells w)).set ((o + w.length : Nat) : Int).toNat (.int x.toNat) = poke l o (cells (w ++ [x])) := by
      rw [cells_append]
      have := poke_snoc (l := l) (o := o) (w := cells w) (.int x.toNat) (by rw [cells_length]; exact hl)
      rw [cells_length] at this
      rw [Int.toNat_natCast]
      exact this
    rw [this]
    exact hq

/-- Memory after writing `w` where `v` points to. -/
def wr (mem : Blk → Option (List Val)) (v : Val) (w : List Val) : Blk → Option (List Val) :=
  match v with
  | .ptr (some (b, o)) => upd mem b ((mem b).map fun l => poke l o.toNat w)
  | _ => mem

theorem upd_self {mem : Blk → Option (List Val)} {b : Blk} {l : Option (List Val)} (h : mem b = l) : upd mem b l = mem := by
  funext x
  simp only [upd]
  split
  · rename_i hx; rw [hx, h]
  · rfl

theorem wr_nil (mem : Blk → Option (List Val)) (v : Val) : wr mem v [] = mem := by
  unfold wr
  split
  · apply upd_self
    cases mem _ <;> simp [poke_nil]
  · rfl

theorem wr_some {mem : Blk → Option (List Val)} {b : Blk} {l : List Val} (h : mem b = some l) (o : Nat) (w : List Val) :
    wr mem (.ptr (some (b, (o : Int)))) w = upd mem b (some (poke l o w)) := by
  simp [wr, h]

/-- `v` points into an object, with `n` cells from there on; `n = none`: NULL. -/
def Room (mem : Blk → Option (List Val)) (v : Val) (n : Option Nat) : Prop :=
  match n with
  | none => v = .ptr none
  | some k => ∃ (b : Blk) (o : Nat) (l : List Val), v = .ptr (some (b, (o : Int))) ∧ b.own = true ∧ mem b = some l ∧
      o + k = l.length

/-- The object a pointer points into. -/
def Val.blk : Val → Option Blk
  | .ptr (some (b, _)) => some b
  | _ => none

/-- The pointers do not point into the same object. -/
def Sep (v w : Val) : Prop := v.blk = none ∨ w.blk = none ∨ v.blk ≠ w.blk

theorem Sep.ne {b b' : Blk} {o o' : Int} (h : Sep (.ptr (some (b, o))) (.ptr (some (b', o')))) : b ≠ b' := by
  rcases h with h | h | h
  · simp [Val.blk] at h
  · simp [Val.blk] at h
  · simpa [Val.blk] using h

/-- Equality of states up to arithmetic. -/
macro "xeq" : tactic => `(tactic|
  (simp only [St.mk.injEq, List.cons.injEq, Val.int.injEq, Val.ptr.injEq, Option.some.injEq, Prod.mk.injEq, true_and, and_true]
   try (and_intros <;> first | rfl | omega | skip)))

theorem run_of_wp {f : X Val} {s : Sched} {st st' : St} {v : Val} (h : WP f s st (fun v' st'' => v' = v ∧ st'' = st')) :
    f s st = .ok (v, st') := by
  obtain ⟨a, st1, h1, rfl, rfl⟩ := h
  exact h1

/-- A state in which the objects with the next numbers are free. -/
structure Wf (st : St) : Prop where
  stack : ∀ j, st.stk ≤ j → st.mem (.stack j) = none
  heap : ∀ i, st.heap.tick ≤ i → st.mem (.heap i) = none

theorem dropStack_wf {st : St} (h : Wf st) : dropStack st.stk st.mem = st.mem := by
  funext b
  cases b <;> simp only [dropStack]
  split
  · rename_i hj
    exact (h.stack _ hj).symm
  · rfl

theorem dropStack_upd {st : St} (hw : Wf st) {b : Blk} {l : List Val} (h : st.mem b = some l) (m : Blk → Option (List Val))
    (x : Option (List Val)) : dropStack st.stk (upd m b x) = upd (dropStack st.stk m) b x := by
  funext b'
  cases b' with
  | stack j =>
    simp only [dropStack, upd]
    by_cases hj : Blk.stack j = b
    · subst hj
      have : ¬ st.stk ≤ j := fun hj => by rw [hw.stack j hj] at h; cases h
      simp [this]
    · simp [hj]
  | _ => simp [dropStack, upd]

theorem wp_malloc (env : Env) (fuel n : Nat) {k : Int} {s : Sched} {st : St} {Q : Val → St → Prop}
    (h : if s.failAlloc st.heap.tick then Q (.ptr none) { st with heap := { st.heap with tick := st.heap.tick + 1 } }
      else Q (.ptr (some (.heap st.heap.tick, 0)))
        { st with heap := { tick := st.heap.tick + 1, live := st.heap.tick :: st.heap.live },
                  mem := upd st.mem (.heap st.heap.tick) (some (List.replicate k.toNat .undef)) }) :
    WP ((cx env fuel n).call "malloc" [.int k]) s st Q := by
  rw [cx_lib _ _ _ rfl]
  show WP (xAlloc (List.replicate k.toNat .undef)) s st Q
  unfold WP xAlloc
  split
  · rename_i hf
    rw [if_pos hf] at h
    exact ⟨_, _, rfl, h⟩
  · rename_i hf
    rw [if_neg hf] at h
    exact ⟨_, _, rfl, h⟩

theorem wp_calloc (env : Env) (fuel n : Nat) {k m : Int} {s : Sched} {st : St} {Q : Val → St → Prop}
    (h : if s.failAlloc st.heap.tick then Q (.ptr none) { st with heap := { st.heap with tick := st.heap.tick + 1 } }
      else Q (.ptr (some (.heap st.heap.tick, 0)))
        { st with heap := { tick := st.heap.tick + 1, live := st.heap.tick :: st.heap.live },
                  mem := upd st.mem (.heap st.heap.tick) (some (List.replicate (k.toNat * m.toNat) (.int 0))) }) :
    WP ((cx env fuel n).call "calloc" [.int k, .int m]) s st Q := by
  rw [cx_lib _ _ _ rfl]
  show WP (xAlloc (List.replicate (k.toNat * m.toNat) (.int 0))) s st Q
  unfold WP xAlloc
  split
  · rename_i hf
    rw [if_pos hf] at h
    exact ⟨_, _, rfl, h⟩
  · rename_i hf
    rw [if_neg hf] at h
    exact ⟨_, _, rfl, h⟩

/-- The value of a pointer to a block. -/
def ptrVal : Ptr → Val
  | none => .ptr none
  | some b => .ptr (some (.heap b.id, 0))

/-- Memory with the block `p` of `size` bytes (uninitialised where its content is not known). -/
def newBlk (mem : Blk → Option (List Val)) (p : Ptr) (size : Nat) : Blk → Option (List Val) :=
  match p with
  | none => mem
  | some b => upd mem (.heap b.id) (some (cells b.mem ++ List.replicate (size - b.mem.length) .undef))

theorem upd_comm (m : Blk → Option (List Val)) {b b' : Blk} (x y : Option (List Val)) (h : b ≠ b') :
    upd (upd m b x) b' y = upd (upd m b' y) b x := by
  funext z
  simp only [upd]
  by_cases h1 : z = b' <;> by_cases h2 : z = b <;> simp_all

theorem cont_upd {g : String → Option (List Val)} {m : Blk → Option (List Val)} {b b' : Blk} {x : Option (List Val)}
    (h : b ≠ b') : cont g (upd m b' x) b = cont g m b := by
  cases b <;> simp_all [cont, upd]

theorem poke_replicate {n : Nat} {w : List Val} (_ : w.length ≤ n) :
    poke (List.replicate n .undef) 0 w = w ++ List.replicate (n - w.length) .undef := by
  simp [poke]

theorem Wf.fresh {st : St} (hw : Wf st) {g : String → Option (List Val)} {b : Blk} {l : List Val}
    (h : cont g st.mem b = some l) :
    b ≠ .heap st.heap.tick := by
  rintro rfl
  have := hw.heap _ (Nat.le_refl _)
  simp only [cont, this] at h
  cases h

theorem Wf.freshOwn {st : St} (hw : Wf st) {b : Blk} {l : List Val} (h : st.mem b = some l) :
    b ≠ .heap st.heap.tick := by
  rintro rfl
  rw [hw.heap _ (Nat.le_refl _)] at h
  cases h

end L8w8jwt.C
