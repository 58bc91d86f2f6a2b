import Verif.C.VerifyText
/-!
# Rules for what l8w8jwt_verify_signature calls
-/

namespace L8w8jwt.C
open L8w8jwt L8w8jwt.C.Src

section
variable {m : Blk → Option (List Val)} {k : Lay} {ex : List (List Val)} {s : Sched} {fr : List Val} {heap : Heap} {stk : Nat}

theorem wp_parsePublicKey (env : Env) (fuel d : Nat) {i n : Nat} {u : Val} {key : Bytes} {Q : Val → St → Prop}
    (hi : ex[i]? = some pkNone) (hk : Pts globs (stkMem m k ex) u (some key)) (hn : n ≤ key.length)
    (h0 : env.crypto.parsePublicKey (key.take n) = none → Q (.int (-1)) ⟨fr, heap, stkMem m k ex, stk⟩)
    (h1 : ∀ pk, env.crypto.parsePublicKey (key.take n) = some pk →
      Q (.int 0) ⟨fr, heap, stkMem m k (ex.set i (pkCells 2 (key.take n) none)), stk⟩) :
    WP ((cx env fuel d).call "mbedtls_pk_parse_public_key" [loc k i, u, .int n]) s ⟨fr, heap, stkMem m k ex, stk⟩ Q := by
  rw [cx_lib _ _ _ rfl]
  show WP (xParsePublicKey env.crypto (lctx env) (loc k i) u n) s _ Q
  cases hm : env.crypto.parsePublicKey (key.take n) with
  | none =>
    refine ⟨_, _, ?_, h0 hm⟩
    simp only [xParsePublicKey, X.bind_apply, read_stk (n := 4) hi rfl, decide_true, demand_true,
      readBytes_pts (env := env) (st := ⟨fr, heap, stkMem m k ex, stk⟩) hk hn, hm]
    rfl
  | some pk =>
    refine ⟨_, _, ?_, h1 pk hm⟩
    simp only [xParsePublicKey, X.bind_apply, read_stk (n := 4) hi rfl, decide_true, demand_true,
      readBytes_pts (env := env) (st := ⟨fr, heap, stkMem m k ex, stk⟩) hk hn, hm]
    rw [write_stk hi (vs := pkCells 2 (key.take n) none) (Nat.le_refl _)]
    rfl

theorem wp_parseCrt (env : Env) (fuel d : Nat) {i n : Nat} {u : Val} {key : Bytes} {Q : Val → St → Prop}
    (hi : ex[i]? = some pkNone) (hk : Pts globs (stkMem m k ex) u (some key)) (hn : n ≤ key.length)
    (h0 : env.crypto.parseCrt (key.take n) = none → Q (.int (-1)) ⟨fr, heap, stkMem m k ex, stk⟩)
    (h1 : ∀ pk, env.crypto.parseCrt (key.take n) = some pk →
      Q (.int 0) ⟨fr, heap, stkMem m k (ex.set i (pkCells 3 (key.take n) none)), stk⟩) :
    WP ((cx env fuel d).call "mbedtls_x509_crt_parse" [loc k i, u, .int n]) s ⟨fr, heap, stkMem m k ex, stk⟩ Q := by
  rw [cx_lib _ _ _ rfl]
  show WP (xParseCrt env.crypto (lctx env) (loc k i) u n) s _ Q
  cases hm : env.crypto.parseCrt (key.take n) with
  | none =>
    refine ⟨_, _, ?_, h0 hm⟩
    simp only [xParseCrt, X.bind_apply, read_stk (n := 4) hi rfl, decide_true, demand_true,
      readBytes_pts (env := env) (st := ⟨fr, heap, stkMem m k ex, stk⟩) hk hn, hm]
    rfl
  | some pk =>
    refine ⟨_, _, ?_, h1 pk hm⟩
    simp only [xParseCrt, X.bind_apply, read_stk (n := 4) hi rfl, decide_true, demand_true,
      readBytes_pts (env := env) (st := ⟨fr, heap, stkMem m k ex, stk⟩) hk hn, hm]
    rw [write_stk hi (vs := pkCells 3 (key.take n) none) (Nat.le_refl _)]
    rfl

theorem bytesAt_pts {env : Env} {st : St} {v : Val} {b : Bytes} (h : Pts globs st.mem v (some b)) : bytesAt (lctx env) v s st = .ok (b, st) := by
  obtain ⟨B, o, l, rfl, hB, ho, hb⟩ := h
  have hc : cont (lctx env).glob st.mem B = some l := hB
  simp only [bytesAt, X.bind_apply, obj_cont hc]
  rw [if_neg (by omega)]
  simp only [X.pure_apply, Int.toNat_natCast]
  rw [show toBytes (l.drop o) = b from hb]

theorem wp_memcmp (env : Env) (fuel d : Nat) {n : Nat} {u v : Val} {a b : Bytes} {r : Bool} {st : St} {Q : Val → St → Prop}
    (hu : Pts globs st.mem u (some a)) (hv : Pts globs st.mem v (some b)) (hr : memcmpNe a b n = .ok r) (hq : Q (.ofBool r) st) :
    WP ((cx env fuel d).call "memcmp" [u, v, .int n]) s st Q := by
  rw [cx_lib _ _ _ rfl]
  show WP (do
    let a ← bytesAt (lctx env) u
    let b ← bytesAt (lctx env) v
    let r ← X.res (memcmpNe a b (n : Int).toNat)
    pure (.ofBool r)) s _ Q
  refine ⟨_, _, ?_, hq⟩
  simp only [X.bind_apply, bytesAt_pts hu, bytesAt_pts hv, Int.toNat_natCast, hr]
  rfl

theorem wp_strstr (env : Env) (fuel d : Nat) {u v : Val} {a b : Bytes} {n : Nat} {r : Bool} {st : St} {Q : Val → St → Prop}
    (hu : Pts globs st.mem u (some a)) (hv : Pts globs st.mem v (some b)) (hn : strlen b = .ok n) (hr : strstrFound a (b.take n) = .ok r)
    (hq : Q (if r then u else .ptr none) st) :
    WP ((cx env fuel d).call "strstr" [u, v]) s st Q := by
  rw [cx_lib _ _ _ rfl]
  show WP (do
    let a ← bytesAt (lctx env) u
    let b ← bytesAt (lctx env) v
    let k ← X.res (strlen b)
    let r ← X.res (strstrFound a (b.take k))
    pure (if r then u else .ptr none)) s _ Q
  refine ⟨_, _, ?_, hq⟩
  simp only [X.bind_apply, bytesAt_pts hu, bytesAt_pts hv, hn, X.res, hr]
  rfl

theorem wp_memsetStk (env : Env) (fuel d : Nat) {i n : Nat} {l : List Val} {Q : Val → St → Prop} (h : ex[i]? = some l) (hl : l.length = n)
    (hq : Q (loc k i) ⟨fr, heap, stkMem m k (ex.set i (zeros n)), stk⟩) :
    WP ((cx env fuel d).call "memset" [loc k i, .int 0, .int n]) s ⟨fr, heap, stkMem m k ex, stk⟩ Q := by
  rw [cx_lib _ _ _ rfl]
  show WP (do
    let _ ← writeCells (lctx env) (loc k i) (List.replicate (n : Int).toNat (.int (0 % 256)))
    pure (loc k i)) s _ Q
  refine ⟨_, _, ?_, hq⟩
  have hz : List.replicate n (Val.int (0 % 256)) = zeros n := by simp [zeros, cells]
  simp only [X.bind_apply, Int.toNat_natCast, hz]
  rw [write_stk h (by rw [zeros_length, hl]; exact Nat.le_refl _), poke_whole (by rw [zeros_length, hl])]
  rfl

theorem wp_readStk {c : Ctx} {i n : Nat} {l : List Val} {Q : List Val → St → Prop} (h : ex[i]? = some l) (hn : l.length = n)
    (hq : Q l ⟨fr, heap, stkMem m k ex, stk⟩) : WP (readCells c (loc k i) n) s ⟨fr, heap, stkMem m k ex, stk⟩ Q :=
  ⟨_, _, read_stk h hn, hq⟩

theorem wp_writeStk {c : Ctx} {i : Nat} {l vs : List Val} {Q : Unit → St → Prop} (h : ex[i]? = some l) (hn : vs.length = l.length)
    (hq : Q () ⟨fr, heap, stkMem m k (ex.set i vs), stk⟩) : WP (writeCells c (loc k i) vs) s ⟨fr, heap, stkMem m k ex, stk⟩ Q := by
  refine ⟨_, _, write_stk h (Nat.le_of_eq hn), ?_⟩
  rw [poke_whole hn]
  exact hq

theorem pts_over {v : Val} {b : Option Bytes} (hs : ∀ j, m (k.blk j) = none) (h : Pts globs m v b) : Pts globs (stkMem m k ex) v b := by
  refine h.frame fun B hB => ?_
  obtain ⟨l, hl⟩ := h.known hB
  refine stk_old fun j hc => ?_
  subst hc
  rw [cont_own (k.blk_own j), hs j] at hl
  cases hl

end

end L8w8jwt.C
