import Verif.C.VerifyRules
/-!
# l8w8jwt_verify_signature (src/decode.c:464-737): text and model
-/

namespace L8w8jwt.C
open L8w8jwt L8w8jwt.C.Src

/-- The memory of the caller during `l8w8jwt_verify_signature`. -/
structure VerCtx (m : Blk → Option (List Val)) (k : Lay) (P V : Blk) (q : DecParams) (w : DecPtrs) (sv : Val) (sig : Bytes) (v : VRes) (tok : Bytes) :
    Prop where
  dec : DecAt m P q w
  stk : ∀ j, m (k.blk j) = none
  lay : k.pre.length ≤ 3
  own : V.own = true
  val : m V = some [.int v.toNat]
  sig : Pts globs m sv (some sig)
  jwt : q.jwt = some tok
  len : tok.length < 18446744073709551616

/-- The local variables of `l8w8jwt_verify_signature` at the label `exit`. -/
structure VerEx (ex : List (List Val)) : Prop where
  pk : ∃ l, ex[0]? = some l ∧ l.length = 4
  crt : ∃ l, ex[1]? = some l ∧ l.length = 4
  key : ∃ l, ex[2]? = some l ∧ l.length = 8192

/-- The local variables in the frame. -/
def verFr (P V : Blk) (sv : Val) (n : Nat) (k : Lay) (r : Val) (alg : Int) (ic : Bool) (kl : Nat) (rest : List Val) : List Val :=
  .ptr (some (P, 0)) :: .ptr (some (V, 0)) :: sv :: .int n :: r :: .int alg :: .ofBool ic :: loc k 0 :: loc k 1 :: loc k 2 :: .int kl :: rest

/-- The slots 11 to 15. -/
def verFrM (k : Lay) (dp : Val) (rest : List Val) : List Val := loc k 3 :: loc k 4 :: loc k 5 :: loc k 6 :: dp :: rest

/-- The local objects. -/
def verO (pk crt : List Val) (key : Bytes) (a b c : Val) (hash : List Val) : List (List Val) :=
  [pk, crt, cells key, [a], [b], [c], hash]

theorem verEx_O {pk crt : List Val} {key : Bytes} {a b c : Val} {hash : List Val} {l : List (List Val)} (h : key.length = 8192)
    (hp : pk.length = 4) (hc : crt.length = 4) : VerEx (verO pk crt key a b c hash ++ l) :=
  ⟨⟨_, rfl, hp⟩, ⟨_, rfl, hc⟩, ⟨_, rfl, by rw [cells_length, h]⟩⟩

/-- Memory after the check: the validation result is changed if the signature is bad. -/
def verMem (m : Blk → Option (List Val)) (V : Blk) (v : VRes) (b : Bool) : Blk → Option (List Val) :=
  if b then m else upd m V (some [.int (v ||| 128#32).toNat])

/-- The end of a `case`: `goto exit` with an error code, or `break`, the verdict having been written. -/
def VerPost (c : Ctx) (K : Stmt) (m : Blk → Option (List Val)) (k : Lay) (P V : Blk) (sv : Val) (n : Nat) (alg : Int) (ic : Bool) (kl : Nat) (v : VRes)
    (heap : Heap) (s : Sched) (Q : Ctl → St → Prop) : VerRes → Prop
  | .error rc => ∀ rest ex, VerEx ex →
      WP (exec c K (.label "exit")) s ⟨verFr P V sv n k (.int rc) alg ic kl rest, heap, stkMem m k ex, k + ex.length⟩ Q
  | .ok b => ∀ r rest ex, VerEx ex → Q .brk ⟨verFr P V sv n k r alg ic kl rest, heap, stkMem (verMem m V v b) k ex, k + ex.length⟩

section
variable {m : Blk → Option (List Val)} {k : Lay} {P V : Blk} {q : DecParams} {w : DecPtrs} {sv : Val} {sig : Bytes} {v : VRes} {tok : Bytes}
  {s : Sched} {heap : Heap} {ex : List (List Val)} {fr : List Val} {stk : Nat}

theorem VerCtx.decAt (h : VerCtx m k P V q w sv sig v tok) : DecAt (stkMem m k ex) P q w := by
  refine h.dec.frame fun b hb => ?_
  obtain ⟨l, hl⟩ := h.dec.known hb
  refine stk_old fun j hc => ?_
  subst hc
  rw [cont_own (k.blk_own j), h.stk j] at hl
  cases hl

theorem VerCtx.sigAt (h : VerCtx m k P V q w sv sig v tok) : Pts globs (stkMem m k ex) sv (some sig) := pts_over h.stk h.sig

theorem VerCtx.out (h : VerCtx m k P V q w sv sig v tok) (j : Nat) : V ≠ k.blk j := by
  rintro rfl
  have := h.val
  rw [h.stk j] at this
  cases this

theorem VerCtx.jwtAt (h : VerCtx m k P V q w sv sig v tok) : ∃ (J : Blk) (jo : Nat) (l : List Val), w.jwt = .ptr (some (J, (jo : Int))) ∧ cont globs m J = some l ∧
    jo ≤ l.length ∧ bytesFrom l jo = tok ∧ ∀ j, J ≠ k.blk j := by
  have h1 := h.dec.jwt
  rw [h.jwt] at h1
  have h2 := nul_some h1
  rw [h2] at h1
  obtain ⟨J, jo, l, e, h3, h4, h5⟩ := h1
  refine ⟨J, jo, l, e, h3, h4, h5, ?_⟩
  rintro j rfl
  rw [cont_own (k.blk_own j), h.stk j] at h3
  cases h3

theorem cont_over {J : Blk} {l : List Val} (h : cont globs m J = some l) (hJ : ∀ j, J ≠ k.blk j) : cont globs (stkMem m k ex) J = some l := by
  cases J with
  | lit _ => exact h
  | glob _ => exact h
  | _ =>
    rw [cont_own rfl] at h ⊢
    rw [stk_old hJ]
    exact h

theorem VerCtx.wpPar (h : VerCtx m k P V q w sv sig v tok) (env : Env) (fuel d : Nat) {i : Int} {t : STy} {u u' : Val} {Q : Val → St → Prop}
    (h0 : 0 ≤ i) (hv : (decCells q w)[i.toNat]? = some u) (ht : asTy env.charSigned t u = .ok u')
    (hq : Q u' ⟨fr, heap, stkMem m k ex, stk⟩) :
    WP (paddV (cx env fuel d) (.ptr (some (P, 0))) i) s ⟨fr, heap, stkMem m k ex, stk⟩
      (fun x st1 => WP (loadV (cx env fuel d) t x) s st1 Q) :=
  wp_ld (c := cx env fuel d) ((cont_own h.dec.own).trans (h.decAt (ex := ex)).cells) h0 hv ht hq

theorem VerCtx.wpJwt (h : VerCtx m k P V q w sv sig v tok) (env : Env) (fuel d : Nat) {Q : Val → St → Prop}
    (hq : Q w.jwt ⟨fr, heap, stkMem m k ex, stk⟩) :
    WP (loadV (cx env fuel d) .ptr (.ptr (some (P, 0)))) s ⟨fr, heap, stkMem m k ex, stk⟩ Q := by
  obtain ⟨J, jo, l, e, -⟩ := h.jwtAt
  exact wp_loadV (c := cx env fuel d) ((cont_own h.dec.own).trans (h.decAt (ex := ex)).cells) (by omega) (by rfl) (by rw [e]; rfl) hq

theorem VerCtx.msg (h : VerCtx m k P V q w sv sig v tok) : Pts globs (stkMem m k ex) w.jwt (some tok) := by
  obtain ⟨J, jo, l, e, h1, h2, h3, h4⟩ := h.jwtAt
  exact ⟨J, jo, l, e, cont_over h1 h4, h2, h3⟩

/-- `dp` points `dot` bytes into the token. -/
def DotAt (w : DecPtrs) (dp : Val) (dot : Nat) : Prop :=
  ∃ (J : Blk) (jo : Nat), w.jwt = .ptr (some (J, (jo : Int))) ∧ dp = .ptr (some (J, jo + dot))

theorem VerCtx.wpLen (h : VerCtx m k P V q w sv sig v tok) (env : Env) (fuel d : Nat) {dp : Val} {dot : Nat} {Q : Val → St → Prop}
    (hd : DotAt w dp dot) (hl : dot ≤ tok.length) (h0 : fr.getD 0 .undef = .ptr (some (P, 0))) (h15 : fr.getD 15 .undef = dp)
    (hq : Q (.int dot) ⟨fr, heap, stkMem m k ex, stk⟩) :
    WP (eval (cx env fuel d) verLen) s ⟨fr, heap, stkMem m k ex, stk⟩ Q := by
  unfold verLen
  obtain ⟨J, jo, e1, e2⟩ := hd
  have := h.len
  xp
  rw [h0, h15]
  refine h.wpJwt env fuel d ?_
  rw [e1, e2]
  simp only [pdiffV, if_true]
  have e3 : (((jo : Int) + dot - jo) / 1) = dot := by omega
  rw [e3]
  xp
  exact hq

/-! ## Conditions -/

/-- The value of the condition of `verElse`. -/
def VTest (n : Int) (Q : Ctl → St → Prop) (u : Val) (st : St) : Prop :=
  ∃ b, u.truth = .ok b ∧ (b = false → Q (.next .run) st) ∧ (b = true → Q (.next (.label "exit")) { st with fr := st.fr.set 4 (.int n) })

theorem vtest_false {n : Int} {Q : Ctl → St → Prop} {u : Val} {st : St} (hv : u.truth = .ok false) (h : Q (.next .run) st) :
    VTest n Q u st := ⟨false, hv, fun _ => h, fun h => absurd h (by decide)⟩

theorem vtest_true {n : Int} {Q : Ctl → St → Prop} {u : Val} {st : St} (hv : u.truth = .ok true)
    (h : Q (.next (.label "exit")) { st with fr := st.fr.set 4 (.int n) }) : VTest n Q u st := ⟨true, hv, fun h => absurd h (by decide), fun _ => h⟩

theorem wp_verElse {c : Ctx} {e : Expr} {n : Int} {st : St} {Q : Ctl → St → Prop}
    (h : WP (eval c e) s st (VTest n Q)) : WP (exec c (verElse e n) .run) s st Q := by
  unfold verElse
  rw [wp_if]
  refine WP_mono h ?_
  rintro v st1 ⟨b, hb, h0, h1⟩
  rw [hb, Lift_ok]
  cases b with
  | false => xs []; exact h0 rfl
  | true => xs []; exact h1 rfl

theorem wp_verFail {c : Ctx} {n r : Int} {st : St} {Q : Ctl → St → Prop} (hr : st.fr.getD 4 .undef = .int r)
    (h0 : r = 0 → Q (.next .run) st) (h1 : r ≠ 0 → Q (.next (.label "exit")) { st with fr := st.fr.set 4 (.int n) }) :
    WP (exec c (verFail n) .run) s st Q := by
  unfold verFail
  refine wp_verElse ?_
  xs []
  rw [hr]
  xs []
  by_cases h : r = 0
  · exact vtest_false (by rw [truth_ofBool]; simpa using h) (h0 h)
  · exact vtest_true (by rw [truth_ofBool]; simpa using h) (h1 h)

theorem VerCtx.wpFlag (h : VerCtx m k P V q w sv sig v tok) (env : Env) (fuel d : Nat) {Q : Ctl → St → Prop}
    (h1 : fr.getD 1 .undef = .ptr (some (V, 0))) (hq : Q (.next .run) ⟨fr, heap, stkMem (verMem m V v false) k ex, stk⟩) :
    WP (exec (cx env fuel d) verFlag .run) s ⟨fr, heap, stkMem m k ex, stk⟩ Q := by
  have hV : stkMem m k ex V = some [.int v.toNat] := by rw [stk_old h.out]; exact h.val
  unfold verFlag
  xs []
  rw [h1]
  refine wp_loadV (c := cx env fuel d) (l := [.int v.toNat]) (w := .int v.toNat) ((cont_own h.own).trans hV) (by omega) (by rfl)
    (asTy_u32 _ v.isLt) ?_
  xs []
  refine wp_storeV h.own (l := [.int v.toNat]) (w := .int (v ||| 128#32).toNat) hV (by omega) (by simp) ?_ ?_
  · rw [BitVec.toNat_or]
    rfl
  rw [stk_upd h.out]
  exact hq

/-- The value of the condition of `verBad`. -/
def BTest (c : Ctx) (s : Sched) (Q : Ctl → St → Prop) (u : Val) (st : St) : Prop :=
  ∃ b, u.truth = .ok b ∧ (b = false → Q (.next .run) st) ∧ (b = true → WP (exec c verFlag .run) s st fun t st1 => t = .next .run ∧ Q .brk st1)

theorem wp_verBad {c : Ctx} {e : Expr} {st : St} {Q : Ctl → St → Prop} (h : WP (eval c e) s st (BTest c s Q)) :
    WP (exec c (verBad e) .run) s st Q := by
  unfold verBad
  rw [wp_if]
  refine WP_mono h ?_
  rintro v st1 ⟨b, hb, h0, h1⟩
  rw [hb, Lift_ok]
  cases b with
  | false => xs []; exact h0 rfl
  | true =>
    simp only [WIf_true]
    rw [wp_seq]
    refine WP_mono (h1 rfl) ?_
    rintro t st2 ⟨rfl, h2⟩
    rw [then_next, wp_brk]
    exact h2

theorem VerCtx.btest (h : VerCtx m k P V q w sv sig v tok) (env : Env) (fuel d : Nat) {Q : Ctl → St → Prop} {u : Val} (b : Bool)
    (h1 : fr.getD 1 .undef = .ptr (some (V, 0))) (hu : u.truth = .ok (!b)) (ht : b = true → Q (.next .run) ⟨fr, heap, stkMem m k ex, stk⟩)
    (hf : b = false → Q .brk ⟨fr, heap, stkMem (verMem m V v false) k ex, stk⟩) :
    BTest (cx env fuel d) s Q u ⟨fr, heap, stkMem m k ex, stk⟩ := by
  refine ⟨_, hu, fun e => ht (by simpa using e), fun e => h.wpFlag env fuel d h1 ⟨rfl, hf (by simpa using e)⟩⟩

/-- `if (r != 0) { *out_validation_res |= …; break; }` -/
theorem VerCtx.wpBad (h : VerCtx m k P V q w sv sig v tok) (env : Env) (fuel d : Nat) {Q : Ctl → St → Prop} {r : Int}
    (h1 : fr.getD 1 .undef = .ptr (some (V, 0))) (hr : fr.getD 4 .undef = .int r)
    (ht : r = 0 → Q (.next .run) ⟨fr, heap, stkMem m k ex, stk⟩)
    (hf : r ≠ 0 → Q .brk ⟨fr, heap, stkMem (verMem m V v false) k ex, stk⟩) :
    WP (exec (cx env fuel d) (verBad verNz) .run) s ⟨fr, heap, stkMem m k ex, stk⟩ Q := by
  refine wp_verBad ?_
  unfold verNz
  xs []
  rw [hr]
  xs []
  refine h.btest env fuel d (decide (r = 0)) h1 (by rw [truth_ofBool]; simp) (fun e => ht (by simpa using e)) fun e => hf (by simpa using e)

/-! ## HMAC -/

theorem decMd_hmac {alg : Int} {md : Md} (h : decMd alg = some md) (ha : alg = 0 ∨ alg = 1 ∨ alg = 2) : 32 + 16 * alg = md.len := by
  rcases ha with rfl | rfl | rfl <;> (cases h; rfl)

theorem memcmp_digest {md : Md} {x sig : Bytes} {b : Bool} (h : memcmpNe sig (padTo 64 x) md.len = .ok b) :
    memcmpNe sig (padTo 64 (digest md x)) md.len = .ok b := by
  have h64 : md.len ≤ 64 := by cases md <;> decide
  obtain ⟨a, e1, h⟩ := res_inv h
  obtain ⟨c, e2, h⟩ := res_inv h
  obtain ⟨-, rfl⟩ := rdN_inv e2
  have : rdN (padTo 64 (digest md x)) md.len = .ok ((padTo 64 x).take md.len) := by
    unfold rdN
    rw [if_pos (by simp [padTo]; omega)]
    congr 1
    have h1 : (padTo 64 (digest md x)).take (digest md x).length = digest md x := by rw [padTo, List.take_left]
    rw [digest_length] at h1
    rw [h1]
    rfl
  simp only [memcmpNe, e1, this, bind, Except.bind]
  exact h

/-- decode.c:563-585 -/
theorem wp_verHmac (env : Env) (fuel d : Nat) (hc : VerCtx m k P V q w sv sig v tok) {K : Stmt} {n kl dot : Nat} {key : Bytes} {md : Md} {ic : Bool}
    {pk crt hash : List Val} {r0 dp v16 : Val} {rest : List Val} {Q : Ctl → St → Prop} {vr : VerRes} (hkey : key.length = 8192) (hpk : pk.length = 4)
    (hcrt : crt.length = 4) (hmd : decMd q.alg = some md) (ha : q.alg = 0 ∨ q.alg = 1 ∨ q.alg = 2) (hkl : 1 ≤ kl) (hkl' : kl < 18446744073709551616)
    (hd : DotAt w dp dot) (hdl : dot ≤ tok.length)
    (hr : verifyHmac env.crypto q.alg md key kl (tok.take dot) sig = .ok vr)
    (hq : VerPost (cx env fuel d) K m k P V sv n q.alg ic kl v heap s Q vr) :
    WP (exec (cx env fuel d) (pre verHmacL K) (.case q.alg)) s
      ⟨verFr P V sv n k r0 q.alg ic kl (verFrM k dp (v16 :: rest)), heap,
        stkMem m k (verO pk crt key (.int md.len) (.int (mdCode md)) (mdInfo (some md)) hash), k + 7⟩ Q := by
  obtain ⟨x, e1, hr⟩ := res_inv hr
  obtain ⟨hx, rfl⟩ := rdN_inv e1
  have hlen := decMd_hmac hmd ha
  have hl64 : md.len ≤ 64 := by cases md <;> decide
  rw [show verHmacL = [0, 1, 2].map Stmt.case ++ verHmacL.drop 3 from rfl, pre_hit _ _ (by simpa using ha)]
  simp only [verHmacL, List.drop]
  unfold verFr verFrM
  rw [wp_pre]
  refine wp_declStk (n := 7) (by have := hc.lay; simp; omega) rfl ?_
  xp
  refine wp_memsetStk env fuel d (i := 7) (n := 64) (l := List.replicate 64 .undef) rfl rfl ?_
  xp
  refine wp_getStk env fuel d (i := 5) (by rfl) (asTy_info _ md) ?_
  xp
  refine hc.wpJwt env fuel d ?_
  xp
  refine hc.wpLen env fuel d hd hdl rfl rfl ?_
  xp
  have e1 : ((kl : Int) - 1) = ((kl - 1 : Nat) : Int) := by omega
  rw [e1]
  refine wp_hmac env fuel d (i := 7) (l := zeros 64) (pts_stk (b := key) rfl) hx hc.msg hdl rfl (by rw [zeros_length]; omega) ?_ ?_
  · intro h0
    rw [h0] at hr
    cases hr
    xp
    refine hc.wpBad env fuel d (r := -1) rfl rfl (fun h => absurd h (by decide)) fun _ => ?_
    exact hq _ (verFrM k dp (loc k 7 :: rest)) (verO pk crt key _ _ _ hash ++ [_]) (verEx_O hkey hpk hcrt)
  · intro y h1
    rw [h1] at hr
    obtain ⟨ne, e2, hr⟩ := res_inv hr
    cases hr
    rw [show 32 + 16 * q.alg.toNat = md.len by omega] at e2
    have hpad : poke (zeros 64) 0 (cells (digest md y)) = cells (padTo 64 (digest md y)) := by
      rw [zeros, poke_zero, padTo, List.drop_replicate]
    rw [hpad]
    xp
    refine hc.wpBad env fuel d (r := 0) rfl rfl (fun _ => ?_) fun h => absurd rfl h
    xp
    rw [hlen]
    refine wp_memcmp env fuel d (n := md.len) hc.sigAt (pts_stk (b := padTo 64 (digest md y)) rfl) (memcmp_digest e2) ?_
    xp
    refine hc.wpBad env fuel d (r := if ne then 1 else 0) rfl rfl (fun h => ?_) fun h => ?_
    · have : ne = false := by cases ne <;> simp at h ⊢
      subst this
      xp
      exact hq _ (verFrM k dp (loc k 7 :: rest)) (verO pk crt key _ _ _ hash ++ [_]) (verEx_O hkey hpk hcrt)
    · have : ne = true := by cases ne <;> simp at h ⊢
      subst this
      exact hq _ (verFrM k dp (loc k 7 :: rest)) (verO pk crt key _ _ _ hash ++ [_]) (verEx_O hkey hpk hcrt)

/-! ## The public key -/

/-- The key context before the `switch`: the key of the certificate, if there is one. -/
def VerPk (cr : Crypto) (crt : Option cr.PK) (l : List Val) : Prop :=
  match crt with
  | some pk => PkIs cr l pk
  | none => l = pkNone

theorem wp_verPub (env : Env) (fuel d : Nat) {K : Stmt} {L : List Stmt} {n kl : Nat} {key : Bytes} {crt : Option env.crypto.PK} {pk : List Val} {alg : Int}
    {r0 : Val} {rest : List Val} {Q : Ctl → St → Prop} {o : Option env.crypto.PK} (hpk : VerPk env.crypto crt pk)
    (h0 : ex[0]? = some pk) (h2 : ex[2]? = some (cells key)) (hr : verificationPk env.crypto crt key kl = .ok o)
    (hn : o = none →
      WP (exec (cx env fuel d) (pre L K) (.label "exit")) s ⟨verFr P V sv n k (.int 420) alg crt.isSome kl rest, heap, stkMem m k ex, stk⟩ Q)
    (hs : ∀ p, o = some p → ∀ r l, PkIs env.crypto l p →
      WP (exec (cx env fuel d) (pre L K) .run) s ⟨verFr P V sv n k r alg crt.isSome kl rest, heap, stkMem m k (ex.set 0 l), stk⟩ Q) :
    WP (exec (cx env fuel d) (pre (verPub :: L) K) .run) s ⟨verFr P V sv n k r0 alg crt.isSome kl rest, heap, stkMem m k ex, stk⟩ Q := by
  unfold verPub
  rw [wp_pre, wp_if]
  cases crt with
  | some p =>
    cases hr
    have := hs p rfl r0 pk hpk
    rw [set_self h0] at this
    unfold verFr at this ⊢
    simp only [Option.isSome_some] at this ⊢
    xp
    exact this
  | none =>
    obtain ⟨x, e1, hr⟩ := res_inv hr
    obtain ⟨hx, rfl⟩ := rdN_inv e1
    cases hr
    cases hpk
    unfold verFr
    simp only [Option.isSome_none]
    xp
    refine wp_parsePublicKey env fuel d h0 (pts_stk h2) hx (fun e => ?_) fun p e => ?_
    · xp
      refine wp_verFail (r := -1) rfl (fun h => absurd h (by decide)) fun _ => ?_
      rw [then_next]
      exact hn e
    · xp
      refine wp_verFail (r := 0) rfl (fun _ => ?_) fun h => absurd rfl h
      rw [then_next]
      exact hs p e _ _ (pkIs_pub e)

theorem truth_okCode (b : Bool) : okCode b = .int (if b then 0 else -1) := rfl

/-- decode.c:586-608 -/
theorem wp_verRsa (env : Env) (fuel d : Nat) (hc : VerCtx m k P V q w sv sig v tok) {K : Stmt} {n kl : Nat} {key : Bytes} {md : Md}
    {co : Option env.crypto.PK} {pk crt : List Val} {hash : Bytes} {r0 : Val} {dp : Val} {rest : List Val} {Q : Ctl → St → Prop} {vr : VerRes}
    (hkey : key.length = 8192) (hpk : VerPk env.crypto co pk) (hpl : pk.length = 4) (hcrt : crt.length = 4) (ha : q.alg = 3 ∨ q.alg = 4 ∨ q.alg = 5)
    (hlen : hash.length = md.len) (hr : verifyRsa env.crypto md co key kl hash sig n = .ok vr)
    (hq : VerPost (cx env fuel d) K m k P V sv n q.alg co.isSome kl v heap s Q vr) :
    WP (exec (cx env fuel d) (pre verRsaL K) (.case q.alg)) s
      ⟨verFr P V sv n k r0 q.alg co.isSome kl (verFrM k dp rest), heap,
        stkMem m k (verO pk crt key (.int md.len) (.int (mdCode md)) (mdInfo (some md)) (cells (padTo 64 hash))), k + 7⟩ Q := by
  obtain ⟨o, e1, hr⟩ := res_inv hr
  have hl64 : md.len ≤ 64 := by cases md <;> decide
  rw [show verRsaL = [3, 4, 5].map Stmt.case ++ verRsaL.drop 3 from rfl, pre_hit _ _ (by simpa using ha)]
  simp only [verRsaL, List.drop]
  refine wp_verPub env fuel d hpk rfl rfl e1 (fun e => ?_) fun p e r l hl => ?_
  · subst e
    cases hr
    rw [skip_pre (by rfl)]
    exact hq (verFrM k dp rest) (verO pk crt key _ _ _ _ ++ []) (verEx_O hkey hpl hcrt)
  · subst e
    obtain ⟨x, e2, hr⟩ := res_inv hr
    obtain ⟨hx, rfl⟩ := rdN_inv e2
    cases hr
    unfold verFr verFrM
    xp
    refine wp_getStk env fuel d (i := 4) (by rfl) (asTy_mdCode _ md) ?_
    xp
    refine wp_getStk env fuel d (i := 3) (by rfl) (asTy_mdLen _ md) ?_
    xp
    refine wp_pkVerify env fuel d (i := 0) (by rfl) hl (pts_stk (b := padTo 64 hash) rfl) (by simp [padTo]; omega) hc.sigAt hx ?_
    have hh : (padTo 64 hash).take md.len = hash := by rw [padTo, ← hlen, List.take_left]
    rw [hh, truth_okCode]
    xp
    generalize env.crypto.pkVerify p md hash (sig.take n) = b at hq ⊢
    refine hc.wpBad env fuel d rfl rfl (fun h => ?_) fun h => ?_
    · have : b = true := by cases b <;> simp at h ⊢
      subst this
      xp
      exact hq _ (verFrM k dp rest) (verO l crt key _ _ _ _ ++ []) (verEx_O hkey hl.2 hcrt)
    · have : b = false := by cases b <;> simp at h ⊢
      subst this
      exact hq _ (verFrM k dp rest) (verO l crt key _ _ _ _ ++ []) (verEx_O hkey hl.2 hcrt)

/-- decode.c:609-634 -/
theorem wp_verPss (env : Env) (fuel d : Nat) (hc : VerCtx m k P V q w sv sig v tok) {K : Stmt} {n kl : Nat} {key : Bytes} {md : Md}
    {co : Option env.crypto.PK} {pk crt : List Val} {hash : Bytes} {r0 : Val} {dp v16 v17 : Val} {rest : List Val} {Q : Ctl → St → Prop} {vr : VerRes}
    (hkey : key.length = 8192) (hpk : VerPk env.crypto co pk) (hpl : pk.length = 4) (hcrt : crt.length = 4) (ha : q.alg = 6 ∨ q.alg = 7 ∨ q.alg = 8)
    (hlen : hash.length = md.len) (hr : verifyPss env.crypto md co key kl hash sig = .ok vr)
    (hq : VerPost (cx env fuel d) K m k P V sv n q.alg co.isSome kl v heap s Q vr) :
    WP (exec (cx env fuel d) (pre verPssL K) (.case q.alg)) s
      ⟨verFr P V sv n k r0 q.alg co.isSome kl (verFrM k dp (v16 :: v17 :: rest)), heap,
        stkMem m k (verO pk crt key (.int md.len) (.int (mdCode md)) (mdInfo (some md)) (cells (padTo 64 hash))), k + 7⟩ Q := by
  obtain ⟨o, e1, hr⟩ := res_inv hr
  have hl64 : md.len ≤ 64 := by cases md <;> decide
  rw [show verPssL = [6, 7, 8].map Stmt.case ++ verPssL.drop 3 from rfl, pre_hit _ _ (by simpa using ha)]
  simp only [verPssL, List.drop]
  refine wp_verPub env fuel d hpk rfl rfl e1 (fun e => ?_) fun p e r l hl => ?_
  · subst e
    cases hr
    rw [skip_pre (by rfl)]
    exact hq (verFrM k dp (v16 :: v17 :: rest)) (verO pk crt key _ _ _ _ ++ []) (verEx_O hkey hpl hcrt)
  · subst e
    have hrsa : env.crypto.isRsa p = true := by
      cases hi : env.crypto.isRsa p with
      | true => rfl
      | false => simp only [hi] at hr; cases hr
    simp only [hrsa, Bool.not_true, Bool.false_eq_true, if_false] at hr
    obtain ⟨x, e2, hr⟩ := res_inv hr
    obtain ⟨hx, rfl⟩ := rdN_inv e2
    cases hr
    unfold verFr verFrM
    xp
    refine wp_pkRsa env fuel d (i := 0) (by rfl) hl hrsa ?_
    xp
    refine wp_getStk env fuel d (i := 4) (by rfl) (asTy_mdCode _ md) ?_
    xp
    refine wp_setPadding env fuel d (i := 0) (by rfl) hl ?_
    have hl2 := hl.set3 (.int (mdCode md))
    xp
    refine wp_getStk env fuel d (i := 4) (by rfl) (asTy_mdCode _ md) ?_
    xp
    refine wp_getStk env fuel d (i := 3) (by rfl) (asTy_mdLen _ md) ?_
    xp
    rw [show wrap (cx env fuel d).cs .u32 (md.len : Nat) = (md.len : Nat) by cases md <;> rfl]
    refine wp_pssVerify env fuel d (i := 0) (by rfl) hl2 (List.getElem?_set_self (by rw [hl.2]; decide)) (pts_stk (b := padTo 64 hash) rfl)
      (by simp [padTo]; omega) hc.sigAt hx ?_
    have hh : (padTo 64 hash).take md.len = hash := by rw [padTo, ← hlen, List.take_left]
    rw [hh, truth_okCode]
    xp
    generalize env.crypto.pssVerify p md hash (sig.take (env.crypto.rsaLen p)) = b at hq ⊢
    refine hc.wpBad env fuel d rfl rfl (fun h => ?_) fun h => ?_
    · have : b = true := by cases b <;> simp at h ⊢
      subst this
      xp
      exact hq _ (verFrM k dp (v16 :: loc k 0 :: rest)) (verO _ crt key _ _ _ _ ++ []) (verEx_O hkey hl2.2 hcrt)
    · have : b = false := by cases b <;> simp at h ⊢
      subst this
      exact hq _ (verFrM k dp (v16 :: loc k 0 :: rest)) (verO _ crt key _ _ _ _ ++ []) (verEx_O hkey hl2.2 hcrt)

/-! ## ECDSA -/

/-- The slots 16 to 22 during ECDSA. -/
def verEcFr (k : Lay) (v16 v17 v18 : Val) (rest : List Val) : List Val := v16 :: v17 :: v18 :: loc k 7 :: loc k 8 :: loc k 9 :: rest

/-- decode.c:635-684 -/
theorem wp_verEc (env : Env) (fuel d : Nat) (hc : VerCtx m k P V q w sv sig v tok) {K : Stmt} {n kl : Nat} {key : Bytes} {md : Md}
    {co : Option env.crypto.PK} {pk crt : List Val} {hash : Bytes} {r0 : Val} {dp v16 v17 v18 v19 v20 v21 : Val} {rest : List Val} {Q : Ctl → St → Prop}
    {vr : VerRes} (hkey : key.length = 8192) (hpk : VerPk env.crypto co pk) (hpl : pk.length = 4) (hcrt : crt.length = 4)
    (ha : q.alg = 9 ∨ q.alg = 12 ∨ q.alg = 10 ∨ q.alg = 11) (hlen : hash.length = md.len) (hn : n < 18446744073709551616)
    (hr : verifyEcdsa env.crypto co key kl hash sig n = .ok vr)
    (hq : VerPost (cx env fuel d) K m k P V sv n q.alg co.isSome kl v heap s Q vr) :
    WP (exec (cx env fuel d) (pre verEcL K) (.case q.alg)) s
      ⟨verFr P V sv n k r0 q.alg co.isSome kl (verFrM k dp (v16 :: v17 :: v18 :: v19 :: v20 :: v21 :: rest)), heap,
        stkMem m k (verO pk crt key (.int md.len) (.int (mdCode md)) (mdInfo (some md)) (cells (padTo 64 hash))), k + 7⟩ Q := by
  obtain ⟨o, e1, hr⟩ := res_inv hr
  have hl64 : md.len ≤ 64 := by cases md <;> decide
  rw [show verEcL = [9, 12, 10, 11].map Stmt.case ++ verEcL.drop 4 from rfl, pre_hit _ _ (by simpa using ha)]
  simp only [verEcL, List.drop]
  refine wp_verPub env fuel d hpk rfl rfl e1 (fun e => ?_) fun p e r l hl => ?_
  · subst e
    cases hr
    rw [skip_pre (by rfl)]
    exact hq (verFrM k dp _) (verO pk crt key _ _ _ _ ++ []) (verEx_O hkey hpl hcrt)
  subst e
  have hec : env.crypto.isEc p = true := by
    cases hi : env.crypto.isEc p with
    | true => rfl
    | false => simp only [hi] at hr; cases hr
  simp only [hec, Bool.not_true, Bool.false_eq_true, if_false] at hr
  show WP _ s ⟨verFr P V sv n k r q.alg co.isSome kl (verFrM k dp (v16 :: v17 :: v18 :: v19 :: v20 :: v21 :: rest)), heap,
    stkMem m k (verO l crt key (.int md.len) (.int (mdCode md)) (mdInfo (some md)) (cells (padTo 64 hash))), k + 7⟩ Q
  have e2 : ((n : Nat) : Int) / 2 = ((n / 2 : Nat) : Int) := by omega
  have step : ∀ st Q, st.fr.getD 3 .undef = .int n →
      Q (.next .run) { st with fr := st.fr.set 18 (.int (n / 2 : Nat)) } →
      WP (exec (cx env fuel d) (.exp (.set 18 (.ar .div .u64 (.loc 3) (.num 2)))) .run) s st Q := by
    intro st Q h3 h
    xp
    rw [h3]
    xp
    rw [e2]
    exact h
  rw [wp_pre]
  refine step _ _ rfl ?_
  unfold verFr verFrM
  rw [then_next, wp_pre]
  refine wp_declStk (n := 7) (by have := hc.lay; simp; omega) rfl ?_
  xp
  refine wp_ecdsaInit env fuel d (i := 7) (l := List.replicate 9 .undef) (by rfl) rfl ?_
  rw [then_next, wp_pre]
  refine wp_declStk (n := 8) (by have := hc.lay; simp; omega) rfl ?_
  rw [then_next, wp_pre]
  refine wp_declStk (n := 9) (by have := hc.lay; simp; omega) rfl ?_
  xp
  refine wp_mpiInit env fuel d (i := 8) (l := [.undef]) (by rfl) rfl ?_
  xp
  refine wp_mpiInit env fuel d (i := 9) (l := [.undef]) (by rfl) rfl ?_
  xp
  refine wp_pkEc env fuel d (i := 0) (by rfl) hl hec ?_
  xp
  refine wp_fromKeypair env fuel d (i := 7) (j := 0) (by rfl) (by rfl) hl (fun e => ?_) fun e => ?_
  · simp only [e, Bool.not_false, if_true] at hr
    cases hr
    xp
    rw [wp_if]
    unfold verNz
    xp
    refine wp_ecdsaFree env fuel d (i := 7) (l := ecNone) (by rfl) rfl ?_
    xp
    refine wp_mpiFree env fuel d (i := 8) (l := [.int 0]) (by rfl) rfl ?_
    xp
    refine wp_mpiFree env fuel d (i := 9) (l := [.int 0]) (by rfl) rfl ?_
    rw [then_next, wp_pre0, wp_goto, then_next, skip_pre (by rfl)]
    exact hq (verFrM k dp _) (verO l crt key _ _ _ _ ++ [ecNone, [.int 0], [.int 0]]) (verEx_O hkey hl.2 hcrt)
  simp only [e, Bool.not_true, Bool.false_eq_true, if_false] at hr
  obtain ⟨x, e3, hr⟩ := res_inv hr
  obtain ⟨hx, rfl⟩ := rdN_inv e3
  obtain ⟨y, e4, hr⟩ := res_inv hr
  obtain ⟨hy, rfl⟩ := rdN_inv e4
  cases hr
  have hecl : (ecCells (env.crypto.grpId p) l).length = 9 := by simp [ecCells, hl.2]
  xp
  rw [wp_if]
  unfold verNz
  xp
  refine wp_mpiRead env fuel d (i := 8) (x := 0) (by rfl) hc.sigAt hx ?_
  xp
  obtain ⟨S, so, ls, hsv, hS, hso, hsb⟩ := hc.sig
  have hSs : ∀ j, S ≠ k.blk j := by
    rintro j rfl
    rw [cont_own (k.blk_own j), hc.stk j] at hS
    cases hS
  have hpd : Pts globs m (.ptr (some (S, ((so + n / 2 : Nat) : Int)))) (some (sig.drop (n / 2))) := pts_drop hS hsb hso hx
  have hlen2 : so + n / 2 ≤ ls.length := by
    obtain ⟨_, _, _, e, h1, h2, -⟩ := hpd
    cases e
    rw [hS] at h1
    cases h1
    omega
  have hadd : ∀ {ex fr heap stk} {R : Val → St → Prop}, R (.ptr (some (S, ((so + n / 2 : Nat) : Int)))) ⟨fr, heap, stkMem m k ex, stk⟩ →
      WP (paddV (cx env fuel d) sv ((n / 2 : Nat) : Int)) s ⟨fr, heap, stkMem m k ex, stk⟩ R := by
    intro ex fr heap stk R h
    rw [hsv]
    refine wp_paddV (c := cx env fuel d) (by exact cont_over hS hSs) (by omega) (by omega) ?_
    exact h
  refine hadd ?_
  xp
  refine wp_mpiRead env fuel d (i := 9) (x := 0) (by rfl) (pts_over hc.stk hpd) hy ?_
  xp
  refine wp_getStk env fuel d (i := 3) (by rfl) (asTy_mdLen _ md) ?_
  xp
  refine wp_addStk env fuel d (i := 7) (j := 5) (by rfl) (by rw [hecl]; decide) ?_
  xp
  refine wp_ecdsaVerify env fuel d (i := 7) (a := 8) (b := 9) (pk := p) (by rfl) hl (by rfl) (by rfl) (pts_stk (b := padTo 64 hash) rfl)
    (by simp [padTo]; omega) ?_
  have hh : (padTo 64 hash).take md.len = hash := by rw [padTo, ← hlen, List.take_left]
  rw [hh, truth_okCode]
  xp
  rw [wp_if]
  generalize env.crypto.ecdsaVerify p hash (mpiRead (sig.take (n / 2))) (mpiRead ((sig.drop (n / 2)).take (n / 2))) = b at hq ⊢
  cases b with
  | true =>
    xp
    refine wp_ecdsaFree env fuel d (i := 7) (by rfl) hecl ?_
    xp
    refine wp_mpiFree env fuel d (i := 8) (by rfl) rfl ?_
    xp
    refine wp_mpiFree env fuel d (i := 9) (by rfl) rfl ?_
    xp
    exact hq _ (verFrM k dp _) (verO l crt key _ _ _ _ ++ [ecNone, [.int 0], [.int 0]]) (verEx_O hkey hl.2 hcrt)
  | false =>
    xp
    refine hc.wpFlag env fuel d rfl ?_
    xp
    refine wp_ecdsaFree env fuel d (i := 7) (by rfl) hecl ?_
    xp
    refine wp_mpiFree env fuel d (i := 8) (by rfl) rfl ?_
    xp
    refine wp_mpiFree env fuel d (i := 9) (by rfl) rfl ?_
    xp
    exact hq _ (verFrM k dp _) (verO l crt key _ _ _ _ ++ [ecNone, [.int 0], [.int 0]]) (verEx_O hkey hl.2 hcrt)

/-! ## Ed25519 -/

theorem wp_verEdCond (env : Env) (fuel d : Nat) {kl : Nat} {key : Bytes} {x : UInt8} {R : Val → St → Prop}
    (hx : key[64]? = some x) (h2 : ex[2]? = some (cells key)) (h9 : fr.getD 9 .undef = loc k 2) (h10 : fr.getD 10 .undef = .int kl)
    (hq : R (.ofBool (decide (kl ≠ 64 ∧ ¬(kl = 65 ∧ x = 0)))) ⟨fr, heap, stkMem m k ex, stk⟩) :
    WP (eval (cx env fuel d) verEdCond) s ⟨fr, heap, stkMem m k ex, stk⟩ R := by
  unfold verEdCond
  xp
  rw [h10]
  by_cases h64 : kl = 64
  · subst h64
    xp
    simpa using hq
  by_cases h65 : kl = 65
  · subst h65
    xp
    rw [h10]
    xp
    rw [h9]
    refine wp_paddV (c := cx env fuel d) (l := cells key) (by exact (cont_own (k.blk_own 2)).trans ((stk_get 2).trans h2)) (by omega)
      (by
        have := (List.getElem?_eq_some_iff.1 hx).1
        rw [cells_length]; omega) ?_
    refine wp_load_u8 (c := cx env fuel d) (l := cells key) (o := 0) (i := 64) (x := x) (by exact (cont_own (k.blk_own 2)).trans ((stk_get 2).trans h2))
      (by rw [bytesFrom_cells]; exact hx) (by omega) ?_
    xp
    have e0 : decide ((x.toNat : Int) = 0) = decide (x = 0) := by
      rcases Decidable.em (x = 0) with h | h
      · subst h; rfl
      · rw [decide_eq_false h, decide_eq_false]
        intro h'
        apply h
        apply UInt8.toNat_inj.1
        simpa using h'
    rw [e0]
    by_cases h : x = 0
    · subst h
      simpa using hq
    · simpa [h] using hq
  · xp
    rw [h10]
    xp
    simpa [h64, h65] using hq

/-- decode.c:685-713 -/
theorem wp_verEd (env : Env) (fuel d : Nat) (hc : VerCtx m k P V q w sv sig v tok) (hwf : NewHeap m k heap) {K : Stmt}
    {n kl dot : Nat} {key : Bytes} {a b c : Val} {ic : Bool} {pk crt : List Val} {hash : List Val} {r0 : Val}
    {dp v16 v17 v18 v19 v20 v21 v22 : Val} {rest : List Val} {Q : Ctl → St → Prop} {vr : VerRes}
    (hkey : key.length = 8192) (hpl : pk.length = 4) (hcrt : crt.length = 4)
    (ha : q.alg = 13) (hed : env.eddsa = true) (hf : 65 < fuel) (hd : DotAt w dp dot) (hdl : dot ≤ tok.length)
    (hr : verifyEd env key kl (tok.take dot) sig = .ok vr)
    (hq : VerPost (cx env fuel (d + 1)) K m k P V sv n q.alg ic kl v heap s Q vr) :
    WP (exec (cx env fuel (d + 1)) (pre verEdL K) (.case q.alg)) s
      ⟨verFr P V sv n k r0 q.alg ic kl (verFrM k dp (v16 :: v17 :: v18 :: v19 :: v20 :: v21 :: v22 :: rest)), heap,
        stkMem m k (verO pk crt key a b c hash), k + 7⟩ Q := by
  unfold verifyEd at hr
  rw [hed] at hr
  simp only [Bool.not_true, Bool.false_eq_true, if_false] at hr
  obtain ⟨x, e1, hr⟩ := res_inv hr
  have hx : key[64]? = some x := by
    unfold rd at e1
    split at e1
    · cases e1; assumption
    · cases e1
  rw [show verEdL = [13].map Stmt.case ++ verEdL.drop 1 from rfl, pre_hit _ _ (by simpa using ha)]
  simp only [verEdL, List.drop]
  rw [wp_pre]
  refine wp_verElse ?_
  refine wp_verEdCond env fuel (d + 1) hx rfl rfl rfl ?_
  by_cases hkl : kl ≠ 64 ∧ ¬(kl = 65 ∧ x = 0)
  · rw [if_pos hkl] at hr
    cases hr
    refine vtest_true (by rw [truth_ofBool, decide_eq_true hkl]) ?_
    rw [then_next, skip_pre (by rfl)]
    exact hq (verFrM k dp _) (verO pk crt key a b c hash ++ []) (verEx_O hkey hpl hcrt)
  rw [if_neg hkl] at hr
  have hkl65 : kl ≤ 65 := by
    rcases Nat.lt_or_ge 65 kl with h | h
    · exact absurd ⟨by omega, by omega⟩ hkl
    · exact h
  obtain ⟨h, e3, hr⟩ := res_inv hr
  refine vtest_false (by rw [truth_ofBool, decide_eq_false hkl]) ?_
  rw [then_next, wp_pre]
  refine wp_declStk (n := 7) (by have := hc.lay; simp; omega) rfl ?_
  rw [zeros_decl 32, then_next, wp_pre]
  refine wp_verElse ?_
  unfold verFr verFrM
  xp
  rw [cx_fun _ _ _ (fn := l8w8jwt_hexstr2bin) rfl]
  have hw8 : ∀ fr, Wf (⟨fr, heap, stkMem m k (verO pk crt key a b c hash ++ [zeros 33]), k + 8⟩ : St) := fun fr =>
    ⟨fun j hj => stk_top (by have := hc.lay; simp [verO]; omega) j hj, fun i hi => (stk_old (hwf i hi).2).trans (hwf i hi).1⟩
  have hroom : Room (stkMem m k (verO pk crt key a b c hash ++ [zeros 33])) (loc k 7) (some 33) :=
    ⟨k.blk 7, 0, zeros 33, rfl, k.blk_own 7, (stk_get 7).trans rfl, by rw [zeros_length]⟩
  have hrun := hexstr2bin_text env fuel d s _
    (hw8 (verFr P V sv n k r0 q.alg ic kl (verFrM k dp (v16 :: v17 :: v18 :: v19 :: v20 :: v21 :: loc k 7 :: rest))))
    (loc k 2) (loc k 7) (.ptr none) (some key) kl (some 33) 33 true (pts_stk (b := key) rfl) hroom rfl (by simp [Sep, Val.blk]) (Or.inr (Or.inl rfl))
    (by omega) h e3 (by omega)
  have hsp := hexstr2bin_space e3
  refine (Eq.mpr (wp_of_eq hrun) ?_ : WP _ s _ _)
  simp only [wr_stk (ex := verO pk crt key a b c hash ++ [zeros 33]) (i := 7) rfl]
  have hpad : poke (zeros 33) 0 (cells h.written) = cells (padTo 33 h.written) := by
    rw [zeros, poke_zero, padTo, List.drop_replicate]
  unfold verFr verFrM
  by_cases hrc : h.rc ≠ 0
  · rw [if_pos hrc] at hr
    cases hr
    xp
    refine vtest_true (by rw [truth_ofBool]; simp; omega) ?_
    rw [then_next, skip_pre (by rfl)]
    exact hq (verFrM k dp _) (verO pk crt key a b c hash ++ [_]) (verEx_O hkey hpl hcrt)
  · rw [if_neg hrc] at hr
    obtain ⟨y, e4, hr⟩ := res_inv hr
    obtain ⟨hy, rfl⟩ := rdN_inv e4
    cases hr
    xp
    refine vtest_false (by rw [truth_ofBool]; simp; omega) ?_
    rw [then_next, wp_pre]
    refine wp_verBad ?_
    simp only [hpad]
    xp
    refine hc.wpJwt env fuel (d + 1) ?_
    xp
    refine hc.wpLen env fuel (d + 1) hd hdl rfl rfl ?_
    xp
    refine wp_edVerify env fuel (d + 1) hc.sigAt hy hc.msg hdl (pts_stk (b := padTo 33 h.written) rfl) (by simp [padTo]; omega) ?_
    generalize env.crypto.edVerify (sig.take 64) (tok.take dot) ((padTo 33 h.written).take 32) = g at hq ⊢
    xp
    refine hc.btest env fuel (d + 1) g rfl (by rw [truth_ofBool]) (fun e => ?_) fun e => ?_
    · subst e
      xp
      exact hq _ (verFrM k dp _) (verO pk crt key a b c hash ++ [_]) (verEx_O hkey hpl hcrt)
    · subst e
      exact hq _ (verFrM k dp _) (verO pk crt key a b c hash ++ [_]) (verEx_O hkey hpl hcrt)

/-! ## The `switch` -/

theorem skips_verHmac {j : Int} (h : ¬ (j = 0 ∨ j = 1 ∨ j = 2)) : verHmacL.all (skips (.case j)) = true := by
  have h0 : (0 : Int) ≠ j := by omega
  have h1 : (1 : Int) ≠ j := by omega
  have h2 : (2 : Int) ≠ j := by omega
  simp [verHmacL, skips, verBad, verFlag, h0, h1, h2]

theorem skips_verRsa {j : Int} (h : ¬ (j = 3 ∨ j = 4 ∨ j = 5)) : verRsaL.all (skips (.case j)) = true := by
  have h0 : (3 : Int) ≠ j := by omega
  have h1 : (4 : Int) ≠ j := by omega
  have h2 : (5 : Int) ≠ j := by omega
  simp [verRsaL, skips, verBad, verPub, verFail, verElse, verFlag, h0, h1, h2]

theorem skips_verPss {j : Int} (h : ¬ (j = 6 ∨ j = 7 ∨ j = 8)) : verPssL.all (skips (.case j)) = true := by
  have h0 : (6 : Int) ≠ j := by omega
  have h1 : (7 : Int) ≠ j := by omega
  have h2 : (8 : Int) ≠ j := by omega
  simp [verPssL, skips, verBad, verPub, verFail, verElse, verFlag, h0, h1, h2]

theorem skips_verEc {j : Int} (h : ¬ (j = 9 ∨ j = 12 ∨ j = 10 ∨ j = 11)) : verEcL.all (skips (.case j)) = true := by
  have h0 : (9 : Int) ≠ j := by omega
  have h1 : (12 : Int) ≠ j := by omega
  have h2 : (10 : Int) ≠ j := by omega
  have h3 : (11 : Int) ≠ j := by omega
  simp [verEcL, skips, verPub, verFail, verElse, verFlag, h0, h1, h2, h3]

theorem skips_verEd {j : Int} (ed : Bool) (h : ¬ j = 13) : (verEdLs ed).all (skips (.case j)) = true := by
  have h0 : (13 : Int) ≠ j := by omega
  cases ed
  · simp [verEdLs, verEdOffL, skips, h0]
  · simp [verEdLs, verEdL, skips, verBad, verElse, verFlag, h0]

/-- decode.c:685-713, in a build without EdDSA. -/
theorem wp_verEdOff (env : Env) (fuel d : Nat) {K : Stmt} {n kl : Nat} {msg : Bytes} {key : Bytes} {a b c : Val} {ic : Bool} {pk crt : List Val} {hash : List Val}
    {r0 : Val} {rest : List Val} {Q : Ctl → St → Prop} {vr : VerRes} (hkey : key.length = 8192) (hpl : pk.length = 4) (hcrt : crt.length = 4)
    (ha : q.alg = 13) (hed : env.eddsa = false) (hr : verifyEd env key kl msg sig = .ok vr)
    (hq : VerPost (cx env fuel (d + 1)) K m k P V sv n q.alg ic kl v heap s Q vr) :
    WP (exec (cx env fuel (d + 1)) (pre verEdOffL K) (.case q.alg)) s
      ⟨verFr P V sv n k r0 q.alg ic kl rest, heap, stkMem m k (verO pk crt key a b c hash), k + 7⟩ Q := by
  unfold verifyEd at hr
  rw [hed] at hr
  simp only [Bool.not_false, if_true] at hr
  cases hr
  rw [show verEdOffL = [13].map Stmt.case ++ verEdOffL.drop 1 from rfl, pre_hit _ _ (by simpa using ha)]
  simp only [verEdOffL, List.drop]
  unfold verFr
  xp
  exact hq rest (verO pk crt key a b c hash ++ []) (verEx_O hkey hpl hcrt)

/-- decode.c:561-736 -/
theorem wp_verSwitch (env : Env) (fuel d : Nat) (hc : VerCtx m k P V q w sv sig v tok) (hwf : NewHeap m k heap)
    {n kl dot : Nat} {key : Bytes} {a b c : Val} {co : Option env.crypto.PK} {pk crt : List Val} {hash : Bytes} {r0 : Val}
    {dp v16 v17 v18 v19 v20 v21 : Val} {ev : List Val} {Q : Ctl → St → Prop} {vr : VerRes}
    (hkey : key.length = 8192) (hpk : VerPk env.crypto co pk) (hpl : pk.length = 4) (hcrt : crt.length = 4) (hkl : 1 ≤ kl)
    (hkl' : kl < 18446744073709551616) (hed : env.eddsa = true → ∃ v, ev = [v]) (hf : 65 < fuel) (hn : n < 18446744073709551616)
    (hmd : ∀ md, decMd q.alg = some md → a = .int md.len ∧ b = .int (mdCode md) ∧ c = mdInfo (some md))
    (hh : ∀ md, decMd q.alg = some md → hashedAlg q.alg = true → hash.length = md.len)
    (hd : DotAt w dp dot) (hdl : dot ≤ tok.length)
    (hr : verifySwitch env q.alg co key kl (tok.take dot) hash sig n = .ok vr)
    (he : ∀ rc, vr = .error rc → ∀ rest ex, VerEx ex →
      WP (exec (cx env fuel (d + 1)) (verEnd env.smallStack) (.label "exit")) s
        ⟨verFr P V sv n k (.int rc) q.alg co.isSome kl rest, heap, stkMem m k ex, k + ex.length⟩ Q)
    (ho : ∀ g, vr = .ok g → ∀ r rest ex, VerEx ex →
      WP (exec (cx env fuel (d + 1)) (verEnd env.smallStack) .run) s
        ⟨verFr P V sv n k r q.alg co.isSome kl rest, heap, stkMem (verMem m V v g) k ex, k + ex.length⟩ Q) :
    WP (exec (cx env fuel (d + 1)) (.seq (.switch (.loc 5) (verSw env.eddsa)) (verEnd env.smallStack)) .run) s
      ⟨verFr P V sv n k r0 q.alg co.isSome kl (verFrM k dp (v16 :: v17 :: v18 :: v19 :: v20 :: v21 :: ev)), heap,
        stkMem m k (verO pk crt key a b c (cells (padTo 64 hash))), k + 7⟩ Q := by
  rw [wp_seq, wp_switch]
  have e0 : ∀ {R : Val → St → Prop} {st : St},
      st = ⟨verFr P V sv n k r0 q.alg co.isSome kl (verFrM k dp (v16 :: v17 :: v18 :: v19 :: v20 :: v21 :: ev)), heap,
        stkMem m k (verO pk crt key a b c (cells (padTo 64 hash))), k + 7⟩ →
      WP (eval (cx env fuel (d + 1)) (.loc 5)) s st R = R (.int q.alg) st := by
    intro R st hst
    subst hst
    unfold verFr
    xi []
  rw [e0 rfl]
  refine ⟨q.alg, rfl, ?_⟩
  show WP (exec (cx env fuel (d + 1)) (verSw env.eddsa) (.case q.alg)) s _ (Dflt (cx env fuel (d + 1)) (verSw env.eddsa) s (Then (cx env fuel (d + 1)) (verEnd env.smallStack) s Q))
  have hpost : ∀ K, skips (.label "exit") K = true →
      VerPost (cx env fuel (d + 1)) K m k P V sv n q.alg co.isSome kl v heap s
        (Dflt (cx env fuel (d + 1)) (verSw env.eddsa) s (Then (cx env fuel (d + 1)) (verEnd env.smallStack) s Q)) vr := by
    intro K hK
    cases vr with
    | error rc =>
      intro rest ex hex
      rw [skip_stmt hK, dflt_label, then_next]
      exact he rc rfl rest ex hex
    | ok g =>
      intro r rest ex h1
      rw [dflt_brk, then_next]
      exact ho g rfl r rest ex h1
  unfold verifySwitch at hr
  dsimp only at hr
  have hsw : verSw env.eddsa = pre verHmacL (pre verRsaL (pre verPssL (pre verEcL (pre (verEdLs env.eddsa) .brk)))) := rfl
  generalize hD : Dflt (cx env fuel (d + 1)) (verSw env.eddsa) s (Then (cx env fuel (d + 1)) (verEnd env.smallStack) s Q) = D at hpost ⊢
  rw [hsw]
  split at hr
  · rename_i ha
    obtain ⟨md, e1, hr1⟩ := res_inv hr
    have e2 := deref_inv e1
    obtain ⟨rfl, rfl, rfl⟩ := hmd md e2
    exact wp_verHmac env fuel (d + 1) hc hkey hpl hcrt e2 ha hkl hkl' hd hdl hr1 (hpost _ (by generalize env.eddsa = ed; cases ed <;> rfl))
  rename_i n1
  rw [skip_pre (skips_verHmac n1)]
  split at hr
  · rename_i ha
    obtain ⟨md, e1, hr1⟩ := res_inv hr
    have e2 := deref_inv e1
    obtain ⟨rfl, rfl, rfl⟩ := hmd md e2
    exact wp_verRsa env fuel (d + 1) hc hkey hpk hpl hcrt ha (hh md e2 (by rcases ha with h | h | h <;> rw [h] <;> rfl)) hr1 (hpost _ (by generalize env.eddsa = ed; cases ed <;> rfl))
  rename_i n2
  rw [skip_pre (skips_verRsa n2)]
  split at hr
  · rename_i ha
    obtain ⟨md, e1, hr1⟩ := res_inv hr
    have e2 := deref_inv e1
    obtain ⟨rfl, rfl, rfl⟩ := hmd md e2
    exact wp_verPss env fuel (d + 1) hc hkey hpk hpl hcrt ha (hh md e2 (by rcases ha with h | h | h <;> rw [h] <;> rfl)) hr1 (hpost _ (by generalize env.eddsa = ed; cases ed <;> rfl))
  rename_i n3
  rw [skip_pre (skips_verPss n3)]
  split at hr
  · rename_i ha
    obtain ⟨md, e2⟩ : ∃ md, decMd q.alg = some md := by rcases ha with h | h | h | h <;> rw [h] <;> exact ⟨_, rfl⟩
    obtain ⟨rfl, rfl, rfl⟩ := hmd md e2
    exact wp_verEc env fuel (d + 1) hc hkey hpk hpl hcrt ha (hh md e2 (by rcases ha with h | h | h | h <;> rw [h] <;> rfl)) hn hr (hpost _ (by generalize env.eddsa = ed; cases ed <;> rfl))
  rename_i n4
  rw [skip_pre (skips_verEc n4)]
  split at hr
  · rename_i ha
    cases hx : env.eddsa with
    | true =>
      obtain ⟨v22, rfl⟩ := hed hx
      exact wp_verEd env fuel d hc hwf hkey hpl hcrt ha hx hf hd hdl hr (hpost _ (by rfl))
    | false => exact wp_verEdOff env fuel d hkey hpl hcrt ha hx hr (hpost _ (by rfl))
  · rename_i n5
    cases hr
    rw [skip_pre (skips_verEd _ n5), skip_stmt (by rfl), ← hD, dflt_case, hsw, skip_pre (by rfl), skip_pre (by rfl), skip_pre (by rfl),
      skip_pre (by rfl)]
    have hdf : ∃ l, verEdLs env.eddsa = l ++ [.default] ∧ l.all (skips .dflt) = true := by
      cases env.eddsa
      · exact ⟨verEdOffL.take 3, rfl, rfl⟩
      · exact ⟨verEdL.take 6, rfl, rfl⟩
    obtain ⟨l, hl, hl'⟩ := hdf
    rw [hl, skip_app hl']
    xp
    exact ho true rfl r0 (verFrM k dp (v16 :: v17 :: v18 :: v19 :: v20 :: v21 :: ev)) (verO pk crt key a b c (cells (padTo 64 hash)) ++ []) (verEx_O hkey hpl hcrt)

/-! ## The end -/

/-- What the buffer for the key is, and what becomes of the heap when it is freed. -/
def VerFin (env : Env) (k : Lay) (s : Sched) (h h' : Heap) : Prop :=
  (env.smallStack = false ∧ h' = h ∧ ∃ k0, k = Lay.of k0) ∨
  (env.smallStack = true ∧ ∃ k0 b hn x, k = Lay.ext k0 2 [b] hn ∧ free (some ⟨b, x⟩) s h = .ok ((), h'))

theorem VerEx.le (h : VerEx ex) (hk : k.pre.length ≤ 3) : k.pre.length ≤ ex.length := by
  obtain ⟨l, hl, -⟩ := h.key
  rcases Nat.lt_or_ge 2 ex.length with h | h
  · omega
  · rw [List.getElem?_eq_none h] at hl; cases hl

theorem stk_pop {k0 b : Nat} {hn : [b].Nodup} (hm : m (.heap b) = none) :
    upd (stkMem m (Lay.ext k0 2 [b] hn) ex) (.heap b) none = stkMem m (Lay.of k0) (ex.eraseIdx 2) := by
  refine stk_ext (fun i => ?_) fun x hx => ?_
  · rw [Lay.of_blk, upd_ne _ _ (by simp), List.getElem?_eraseIdx]
    rcases Nat.lt_or_ge i 2 with h | h
    · rw [← Lay.ext_lt (hs := [b]) (hn := hn) h, stk_get, if_pos h]
    · have : Blk.stack (k0 + i) = (Lay.ext k0 2 [b] hn).blk (2 + (i - 1)) := by
        rw [Lay.ext_ge (by simp; omega)]; simp; omega
      rw [this, stk_get, if_neg (by omega)]
      congr 1; omega
  · by_cases h : x = .heap b
    · subst h; rw [upd_same, hm]
    · rw [upd_ne _ _ h]
      refine stk_old fun i e => ?_
      rcases Lay.ext_cases (hn := hn) (k0 := k0) (n := 2) i with ⟨j, hj, e'⟩ | ⟨a, ha, e'⟩
      · exact hx (j - k0) (by rw [e, e', Lay.of_blk]; congr 1; omega)
      · have : a = b := by simpa using ha
        subst this
        exact h (e.trans e')

/-- decode.c:720-736 -/
theorem wp_verExit (env : Env) (fuel d : Nat) {n kl : Nat} {alg : Int} {ic : Bool} {rest : List Val} {r : Val} {md : Mode} {heap0 h' : Heap} {fr0 : List Val}
    {mem0 : Blk → Option (List Val)} {Q : Val → St → Prop} (hmd : md = .run ∨ md = .label "exit") (hs : ∀ j, m (k.blk j) = none) (hk : k.pre.length ≤ 3) (hex : VerEx ex)
    (hfin : VerFin env k s heap h') (hq : Q r ⟨fr0, h', m, k.base⟩) :
    WP (exec (cx env fuel (d + 1)) (pre (verExit env.smallStack) (.ret (.loc 4))) md) s ⟨verFr P V sv n k r alg ic kl rest, heap, stkMem m k ex, k + ex.length⟩
      (Return ⟨fr0, heap0, mem0, k.base⟩ Q) := by
  have hle := hex.le hk
  obtain ⟨⟨pk, h0, hpk⟩, ⟨crt, h1, hcrt⟩, ⟨key, h2, hkey⟩⟩ := hex
  unfold verExit
  simp only [List.cons_append, List.nil_append]
  rw [wp_pre]
  have hlab : ∀ (st : St) (R : Ctl → St → Prop), R (.next .run) st → WP (exec (cx env fuel (d + 1)) (.label "exit") md) s st R := by
    intro st R h
    rcases hmd with rfl | rfl
    · xi []; exact h
    · xi []; exact h
  refine hlab _ _ ?_
  rw [then_next]
  unfold verFr
  xp
  refine wp_zero env fuel (d + 1) (i := 2) (n := 8192) h2 hkey (by decide) ?_
  rcases hfin with ⟨hss, rfl, k0, rfl⟩ | ⟨hss, k0, b, hn, x, rfl, f1⟩
  · rw [hss]
    simp only [Bool.false_eq_true, if_false, List.nil_append]
    rw [then_next, wp_pre, wp_if]
    cases ic with
    | true =>
      xp
      refine wp_crtFree env fuel (d + 1) (i := 1) (l := crt) (by rw [List.getElem?_set_ne (by decide)]; exact h1) hcrt ?_
      xp
      rw [show (Lay.of k0).base = k0 from rfl, drop_stkMem hs]
      exact hq
    | false =>
      xp
      refine wp_pkFree env fuel (d + 1) (i := 0) (l := pk) (by rw [List.getElem?_set_ne (by decide)]; exact h0) hpk ?_
      xp
      rw [show (Lay.of k0).base = k0 from rfl, drop_stkMem hs]
      exact hq
  · rw [hss]
    have e2 : loc (Lay.ext k0 2 [b] hn) 2 = ptrVal (some ⟨b, x⟩) := by
      show Val.ptr (some (_, 0)) = _
      rw [Lay.ext_heap (n := 2) (i := 0) (a := b) rfl]; rfl
    have hb : m (.heap b) = none := by
      have := hs 2
      rwa [show (Lay.ext k0 2 [b] hn).blk 2 = .heap b from Lay.ext_heap (n := 2) (i := 0) (a := b) rfl] at this
    have hs0 : ∀ j, m ((Lay.of k0).blk j) = none := by
      intro j
      rw [Lay.of_blk]
      cases hj : m (.stack (k0 + j)) with
      | none => rfl
      | some l =>
        refine absurd rfl (?_ : Blk.stack (k0 + j) ≠ .stack (k0 + j))
        exact (Lay.ext_mem (hn := hn) (k0 := k0) (n := 2) (fun i e => by rw [e, hs i] at hj; cases hj)).2 _ (Nat.le_add_right _ _)
    rw [e2, ← loc_ext (by omega), ← loc_ext (by omega)]
    simp only [if_true, List.cons_append, List.nil_append]
    xp
    refine wp_l8freeP env fuel d f1 (fun j hj => stk_top (by simpa using hle) j (by simpa using hj)) ?_
    rw [show fmem (stkMem m (Lay.ext k0 2 [b] hn) (ex.set 2 (zeros 8192))) (some ⟨b, x⟩) = _ from stk_pop hb]
    have g0 : ((ex.set 2 (zeros 8192)).eraseIdx 2)[0]? = some pk := by
      rw [List.getElem?_eraseIdx, if_pos (by decide), List.getElem?_set_ne (by decide)]; exact h0
    have g1 : ((ex.set 2 (zeros 8192)).eraseIdx 2)[1]? = some crt := by
      rw [List.getElem?_eraseIdx, if_pos (by decide), List.getElem?_set_ne (by decide)]; exact h1
    rw [then_next, wp_pre, wp_if]
    cases ic with
    | true =>
      xp
      refine wp_crtFree env fuel (d + 1) (i := 1) (l := crt) g1 hcrt ?_
      xp
      rw [show (Lay.ext k0 2 [b] hn).base = k0 from rfl] at hq ⊢
      rw [drop_stkMem hs0]
      exact hq
    | false =>
      xp
      refine wp_pkFree env fuel (d + 1) (i := 0) (l := pk) g0 hpk ?_
      xp
      rw [show (Lay.ext k0 2 [b] hn).base = k0 from rfl] at hq ⊢
      rw [drop_stkMem hs0]
      exact hq

/-- What the caller gets. -/
def VerOut (Q : Val → St → Prop) (fr : List Val) (heap : Heap) (m : Blk → Option (List Val)) (k : Nat) (V : Blk) (v : VRes) : VerRes → Prop
  | .error rc => Q (.int rc) ⟨fr, heap, m, k⟩
  | .ok b => Q (.int 0) ⟨fr, heap, verMem m V v b, k⟩

theorem VerCtx.freeStk (hc : VerCtx m k P V q w sv sig v tok) (b : Bool) (j : Nat) : verMem m V v b (k.blk j) = none := by
  unfold verMem
  split
  · exact hc.stk j
  · rw [upd_ne _ _ (fun e => hc.out j e.symm)]
    exact hc.stk j

theorem hashed_mem {alg : Int} : hashedAlg alg = true ↔ alg ∈ [9, 10, 11, 3, 4, 5, 6, 7, 8, 12] := by
  simp only [hashedAlg, Bool.or_eq_true, decide_eq_true_eq, List.mem_cons, List.not_mem_nil, or_false]
  simp only [or_assoc]

theorem hashed_md {alg : Int} (h : hashedAlg alg = true) : ∃ md, decMd alg = some md := by
  rw [hashed_mem] at h
  simp only [List.mem_cons, List.not_mem_nil, or_false] at h
  rcases h with h | h | h | h | h | h | h | h | h | h <;> rw [h] <;> exact ⟨_, rfl⟩

/-- decode.c:536-736 -/
theorem wp_verAlgs (env : Env) (fuel d : Nat) (hc : VerCtx m k P V q w sv sig v tok) (hwf : NewHeap m k heap)
    {n kl dot : Nat} {key : Bytes} {a b c : Val} {co : Option env.crypto.PK} {pk crt : List Val} {r0 : Val}
    {dp v16 v17 v18 v19 v20 v21 : Val} {ev : List Val} {Q : Val → St → Prop} {vr : VerRes} {heap0 h' : Heap} {fr0 : List Val} {mem0 : Blk → Option (List Val)}
    (hkey : key.length = 8192) (hpk : VerPk env.crypto co pk) (hpl : pk.length = 4) (hcrt : crt.length = 4) (hkl : 1 ≤ kl)
    (hkl' : kl < 18446744073709551616) (hed : env.eddsa = true → ∃ v, ev = [v]) (hf : 65 < fuel) (hn : n < 18446744073709551616)
    (hmd : ∀ md, decMd q.alg = some md → a = .int md.len ∧ b = .int (mdCode md) ∧ c = mdInfo (some md))
    (hd : DotAt w dp dot) (hdl : dot ≤ tok.length)
    (hr : (match verifyHash env.crypto q.alg (tok.take dot) with
      | none => .ok (.error L8W8JWT_SHA2_FAILURE)
      | some hash => verifySwitch env q.alg co key kl (tok.take dot) hash sig n : Res VerRes) = .ok vr)
    (hfin : VerFin env k s heap h') (hq : VerOut Q fr0 h' m k.base V v vr) :
    WP (exec (cx env fuel (d + 1)) (verAlgs env.eddsa env.smallStack) .run) s
      ⟨verFr P V sv n k r0 q.alg co.isSome kl (verFrM k dp (v16 :: v17 :: v18 :: v19 :: v20 :: v21 :: ev)), heap,
        stkMem m k (verO pk crt key a b c (zeros 64)), k + 7⟩ (Return ⟨fr0, heap0, mem0, k.base⟩ Q) := by
  have he : ∀ rc, vr = .error rc → ∀ rest ex, VerEx ex →
      WP (exec (cx env fuel (d + 1)) (verEnd env.smallStack) (.label "exit")) s
        ⟨verFr P V sv n k (.int rc) q.alg co.isSome kl rest, heap, stkMem m k ex, k + ex.length⟩ (Return ⟨fr0, heap0, mem0, k.base⟩ Q) := by
    rintro rc rfl rest ex hex
    unfold verEnd
    rw [wp_seq, skip_stmt (by rfl), then_next]
    exact wp_verExit env fuel d (.inr rfl) hc.stk hc.lay hex hfin hq
  have ho : ∀ g, vr = .ok g → ∀ r rest ex, VerEx ex →
      WP (exec (cx env fuel (d + 1)) (verEnd env.smallStack) .run) s
        ⟨verFr P V sv n k r q.alg co.isSome kl rest, heap, stkMem (verMem m V v g) k ex, k + ex.length⟩ (Return ⟨fr0, heap0, mem0, k.base⟩ Q) := by
    rintro g rfl r rest ex hex
    unfold verEnd
    rw [wp_seq]
    have h1 := wp_verExit (P := P) (V := V) (sv := sv) (s := s) (n := n) (kl := kl) (alg := q.alg) (ic := co.isSome) (rest := rest) (heap0 := heap0) (mem0 := mem0)
      env fuel d (r := .int 0) (.inl rfl) (hc.freeStk g) hc.lay hex hfin hq
    unfold verFr at h1 ⊢
    xi []
    exact h1
  unfold verAlgs
  generalize hS : Stmt.seq (.switch (.loc 5) (verSw env.eddsa)) (verEnd env.smallStack) = S
  rw [wp_seq, wp_switch]
  have e0 : ∀ {R : Val → St → Prop} {st : St},
      st = ⟨verFr P V sv n k r0 q.alg co.isSome kl (verFrM k dp (v16 :: v17 :: v18 :: v19 :: v20 :: v21 :: ev)), heap,
        stkMem m k (verO pk crt key a b c (zeros 64)), k + 7⟩ →
      WP (eval (cx env fuel (d + 1)) (.loc 5)) s st R = R (.int q.alg) st := by
    intro R st hst
    subst hst
    unfold verFr
    xi []
  rw [e0 rfl]
  refine ⟨q.alg, rfl, ?_⟩
  generalize hbody : pre verHashL .brk = body
  show WP (exec (cx env fuel (d + 1)) body (.case q.alg)) s _ (Dflt (cx env fuel (d + 1)) body s _)
  conv => arg 1; rw [← hbody]
  cases hh : hashedAlg q.alg with
  | true =>
    obtain ⟨md, hmd1⟩ := hashed_md hh
    obtain ⟨rfl, rfl, rfl⟩ := hmd md hmd1
    simp only [verifyHash, hh, if_true, hmd1] at hr
    unfold verHashL
    rw [pre_hit _ _ (hashed_mem.1 hh)]
    unfold verFr verFrM
    xp
    refine wp_getStk env fuel (d + 1) (i := 5) (by rfl) (asTy_info _ md) ?_
    xp
    refine hc.wpJwt env fuel (d + 1) ?_
    xp
    refine hc.wpLen env fuel (d + 1) hd hdl rfl rfl ?_
    xp
    refine wp_md env fuel (d + 1) (i := 6) (l := zeros 64) hc.msg hdl rfl (by rw [zeros_length]) ?_ ?_
    · intro h0
      simp only [hashOf, h0, Option.map_none] at hr
      cases hr
      xp
      refine wp_verFail (r := -1) rfl (fun h => absurd h (by decide)) fun _ => ?_
      rw [then_next, skip_pre (by rfl), skip_stmt (by rfl), dflt_label, then_next, ← hS, wp_seq, skip_stmt (by rfl), then_next]
      exact he _ rfl (verFrM k dp _) (verO pk crt key _ _ _ _ ++ []) (verEx_O hkey hpl hcrt)
    · intro x h1
      simp only [hashOf, h1, Option.map_some] at hr
      have hpad : poke (zeros 64) 0 (cells (digest md x)) = cells (padTo 64 (digest md x)) := by
        rw [zeros, poke_zero, padTo, List.drop_replicate]
      rw [hpad]
      xp
      refine wp_verFail (r := 0) rfl (fun _ => ?_) fun h => absurd rfl h
      xp
      subst hS
      exact wp_verSwitch (a := .int md.len) (b := .int (mdCode md)) (c := mdInfo (some md)) (hash := digest md x) (r0 := .int 0) (dp := dp) (v16 := v16) (v17 := v17) (v18 := v18) (v19 := v19) (v20 := v20) (v21 := v21) (ev := ev) (Q := Return ⟨fr0, heap0, mem0, k.base⟩ Q) env fuel d hc hwf hkey hpk hpl hcrt hkl hkl' hed hf hn hmd
        (fun md' h' _ => by rw [hmd1] at h'; cases h'; exact digest_length _ _) hd hdl hr he ho
  | false =>
    simp only [verifyHash, hh, Bool.false_eq_true, if_false] at hr
    have hsk : verHashL.all (skips (.case q.alg)) = true := by
      have hno : ∀ x ∈ ([9, 10, 11, 3, 4, 5, 6, 7, 8, 12] : List Int), x ≠ q.alg := by
        intro x hx e
        subst e
        rw [hashed_mem.2 hx] at hh
        cases hh
      unfold verHashL
      rw [List.all_append, List.all_map]
      simp only [Bool.and_eq_true]
      refine ⟨List.all_eq_true.2 fun x hx => ?_, rfl⟩
      simpa [skips] using hno x hx
    rw [skip_pre hsk, skip_stmt (by rfl), dflt_case, ← hbody]
    rw [show verHashL = verHashL.take 13 ++ [.default] from rfl, skip_app (by rfl)]
    xp
    subst hS
    exact wp_verSwitch (hash := []) (r0 := r0) (dp := dp) (v16 := v16) (v17 := v17) (v18 := v18) (v19 := v19) (v20 := v20) (v21 := v21) (ev := ev) (Q := Return ⟨fr0, heap0, mem0, k.base⟩ Q) env fuel d hc hwf hkey hpk hpl hcrt hkl hkl' hed hf hn hmd
      (fun md' h' e => by rw [hh] at e; cases e) hd hdl hr he ho

/-- decode.c:520-736 -/
theorem wp_verDot (env : Env) (fuel d : Nat) (hc : VerCtx m k P V q w sv sig v tok) (hwf : NewHeap m k heap)
    {n kl : Nat} {key : Bytes} {a b c : Val} {co : Option env.crypto.PK} {pk crt : List Val} {r0 : Val}
    {v15 v16 v17 v18 v19 v20 v21 : Val} {ev : List Val} {Q : Val → St → Prop} {vr : VerRes} {heap0 h' : Heap} {fr0 : List Val} {mem0 : Blk → Option (List Val)}
    (hkey : key.length = 8192) (hpk : VerPk env.crypto co pk) (hpl : pk.length = 4) (hcrt : crt.length = 4) (hkl : 1 ≤ kl)
    (hkl' : kl < 18446744073709551616) (hed : env.eddsa = true → ∃ v, ev = [v]) (hf : 65 < fuel) (hn : n < 18446744073709551616)
    (hmd : ∀ md, decMd q.alg = some md → a = .int md.len ∧ b = .int (mdCode md) ∧ c = mdInfo (some md))
    (hr : (do
      let dot ← signatureDot tok
      match dot with
      | none => .ok (.error L8W8JWT_DECODE_FAILED_INVALID_TOKEN_FORMAT)
      | some dot => do
        let msg ← rdN tok dot
        match verifyHash env.crypto q.alg msg with
        | none => .ok (.error L8W8JWT_SHA2_FAILURE)
        | some hash => verifySwitch env q.alg co key kl msg hash sig n : Res VerRes) = .ok vr)
    (hfin : VerFin env k s heap h') (hq : VerOut Q fr0 h' m k.base V v vr) :
    WP (exec (cx env fuel (d + 1)) (pre verDot (verAlgs env.eddsa env.smallStack)) .run) s
      ⟨verFr P V sv n k r0 q.alg co.isSome kl (verFrM k v15 (v16 :: v17 :: v18 :: v19 :: v20 :: v21 :: ev)), heap,
        stkMem m k (verO pk crt key a b c (zeros 64)), k + 7⟩ (Return ⟨fr0, heap0, mem0, k.base⟩ Q) := by
  obtain ⟨J, jo, l, e, h1, h2, h3, h4⟩ := hc.jwtAt
  have hcont : ∀ ex, cont globs (stkMem m k ex) J = some l := fun ex => cont_over h1 h4
  have hnone : ∀ rest ex, VerEx ex → vr = .error 600 →
      WP (exec (cx env fuel (d + 1)) (verAlgs env.eddsa env.smallStack) (.label "exit")) s
        ⟨verFr P V sv n k (.int 600) q.alg co.isSome kl rest, heap, stkMem m k ex, k + ex.length⟩ (Return ⟨fr0, heap0, mem0, k.base⟩ Q) := by
    rintro rest ex hex rfl
    unfold verAlgs verEnd
    rw [wp_seq, skip_stmt (by rfl), then_next, wp_seq, skip_stmt (by rfl), then_next, wp_seq, skip_stmt (by rfl), then_next]
    exact wp_verExit env fuel d (.inr rfl) hc.stk hc.lay hex hfin hq
  obtain ⟨dot, ed, hr⟩ := res_inv hr
  unfold signatureDot at ed
  obtain ⟨d1, e1, ed⟩ := res_inv ed
  unfold verDot verFr verFrM
  xp
  refine hc.wpJwt env fuel (d + 1) ?_
  xp
  rw [e]
  refine wp_strchr env fuel (d + 1) (ch := 46) (by exact hcont _) h3 (by exact e1) ?_
  cases d1 with
  | none =>
    cases ed
    cases hr
    rw [then_next, wp_pre]
    refine wp_verElse ?_
    xp
    refine vtest_true (by rfl) ?_
    rw [then_next, skip_pre (by rfl)]
    exact hnone (verFrM k _ _) (verO pk crt key a b c (zeros 64) ++ []) (verEx_O hkey hpl hcrt) rfl
  | some d1 =>
    have hd1 := strchr_lt e1
    obtain ⟨d2, e2, ed⟩ := res_inv ed
    rw [then_next, wp_pre]
    refine wp_verElse ?_
    xp
    refine vtest_false (by rfl) ?_
    xp
    have hb2 : bytesFrom l (jo + (d1 + 1)) = tok.drop (d1 + 1) := bytes_drop h3 hd1
    have hlen : jo + tok.length ≤ l.length := by
      have := toBytes_length_le (l.drop jo)
      rw [show toBytes (l.drop jo) = tok from h3] at this
      simp at this
      omega
    refine wp_paddV (c := cx env fuel (d + 1)) (l := l) (by exact hcont _) (by omega) (by omega) ?_
    have e3 : (((jo + d1 : Nat) : Int) + 1) = ((jo + (d1 + 1) : Nat) : Int) := by omega
    rw [e3]
    xp
    refine wp_strchr env fuel (d + 1) (ch := 46) (by exact hcont _) hb2 (by exact e2) ?_
    cases d2 with
    | none =>
      cases ed
      cases hr
      rw [then_next, wp_pre]
      refine wp_verElse ?_
      xp
      refine vtest_true (by rfl) ?_
      rw [then_next, wp_pre0]
      exact hnone (verFrM k _ _) (verO pk crt key a b c (zeros 64) ++ []) (verEx_O hkey hpl hcrt) rfl
    | some d2 =>
      cases ed
      have hd2 := strchr_lt e2
      rw [List.length_drop] at hd2
      obtain ⟨msg, em, hr⟩ := res_inv hr
      obtain ⟨hl, rfl⟩ := rdN_inv em
      rw [then_next, wp_pre]
      refine wp_verElse ?_
      xp
      refine vtest_false (by rfl) ?_
      rw [then_next, wp_pre0]
      refine wp_verAlgs (dot := d1 + 1 + d2) env fuel d hc hwf hkey hpk hpl hcrt hkl hkl' hed hf hn hmd ⟨J, jo, e, ?_⟩ hl hr hfin hq
      congr 3
      omega

/-- decode.c:512-736 -/
theorem wp_verMd (env : Env) (fuel d : Nat) (hc : VerCtx m k P V q w sv sig v tok) (hwf : NewHeap m k heap)
    {n kl : Nat} {key : Bytes} {co : Option env.crypto.PK} {pk crt : List Val} {r0 : Val}
    {Q : Val → St → Prop} {vr : VerRes} {heap0 h' : Heap} {fr0 : List Val} {mem0 : Blk → Option (List Val)}
    (hkey : key.length = 8192) (hpk : VerPk env.crypto co pk) (hpl : pk.length = 4) (hcrt : crt.length = 4) (hkl : 1 ≤ kl)
    (hkl' : kl < 18446744073709551616) (hf : 65 < fuel) (hn : n < 18446744073709551616)
    (hr : (do
      let dot ← signatureDot tok
      match dot with
      | none => .ok (.error L8W8JWT_DECODE_FAILED_INVALID_TOKEN_FORMAT)
      | some dot => do
        let msg ← rdN tok dot
        match verifyHash env.crypto q.alg msg with
        | none => .ok (.error L8W8JWT_SHA2_FAILURE)
        | some hash => verifySwitch env q.alg co key kl msg hash sig n : Res VerRes) = .ok vr)
    (hfin : VerFin env k s heap h') (hq : VerOut Q fr0 h' m k.base V v vr) :
    WP (exec (cx env fuel (d + 1)) (pre verMd (pre verDot (verAlgs env.eddsa env.smallStack))) .run) s
      ⟨verFr P V sv n k r0 q.alg co.isSome kl (List.replicate 11 .undef ++ edVar env.eddsa), heap, stkMem m k [pk, crt, cells key], k + 3⟩
      (Return ⟨fr0, heap0, mem0, k.base⟩ Q) := by
  unfold verMd verFr
  simp only [List.replicate, List.cons_append, List.nil_append]
  rw [wp_pre]
  refine wp_declStk (n := 3) (by have := hc.lay; simp; omega) rfl ?_
  xp
  refine wp_putStk env fuel (d + 1) (i := 3) (u := .undef) (v' := .int 0) rfl rfl ?_
  rw [then_next, wp_pre]
  refine wp_declStk (n := 4) (by have := hc.lay; simp; omega) rfl ?_
  xp
  refine wp_putStk env fuel (d + 1) (i := 4) (u := .undef) (v' := .int 0) rfl rfl ?_
  rw [then_next, wp_pre]
  refine wp_declStk (n := 5) (by have := hc.lay; simp; omega) rfl ?_
  xp
  refine wp_putStk env fuel (d + 1) (i := 5) (u := .undef) (v' := .ptr none) rfl rfl ?_
  have hsw : ∀ a b c0, (∀ md, decMd q.alg = some md → a = .int md.len ∧ b = .int (mdCode md) ∧ c0 = mdInfo (some md)) →
      WP (exec (cx env fuel (d + 1)) (pre [.declMem 14 64 [.int 0] (.int 0)] (pre verDot (verAlgs env.eddsa env.smallStack))) .run) s
        ⟨verFr P V sv n k r0 q.alg co.isSome kl (loc k 3 :: loc k 4 :: loc k 5 :: .undef :: .undef :: .undef :: .undef :: .undef :: .undef :: .undef :: .undef :: edVar env.eddsa), heap,
          stkMem m k [pk, crt, cells key, [a], [b], [c0]], k + 6⟩
        (Return ⟨fr0, heap0, mem0, k.base⟩ Q) := by
    intro a b c0 hmd
    rw [wp_pre]
    refine wp_declStk (n := 6) (by have := hc.lay; simp; omega) rfl ?_
    rw [zeros_decl 63, then_next, wp_pre0]
    exact wp_verDot (v15 := .undef) (v16 := .undef) (v17 := .undef) (v18 := .undef) (v19 := .undef) (v20 := .undef) (v21 := .undef) (ev := edVar env.eddsa)
      env fuel d hc hwf hkey hpk hpl hcrt hkl hkl' (fun h => ⟨_, by rw [h]; rfl⟩) hf hn hmd hr hfin hq
  xp
  refine wp_mdInfo env fuel d (f := "md_info_from_alg") (i := 5) (a := 4) (b := 3) (congrArg some md_info_dec) (by have := hc.lay; simp; omega) rfl rfl rfl (by decide) (by decide) (by decide)
    (fun hn => ?_) fun md hm => ?_
  · rw [then_next]
    refine hsw (.int 0) (.int 0) (.ptr none) fun md h => ?_
    rw [decMd_sel, hn] at h; cases h
  · rw [then_next]
    refine hsw _ _ _ fun md' h => ?_
    rw [decMd_sel, hm] at h
    cases h
    exact ⟨rfl, rfl, rfl⟩

theorem verOut_upd {Q : Val → St → Prop} {vr : VerRes} {rc : Nat} {v' : VRes} (hv : m V = some [.int v.toNat])
    (hr : (match vr with
      | .error rc => (rc, v)
      | .ok true => (L8W8JWT_SUCCESS, v)
      | .ok false => (L8W8JWT_SUCCESS, v ||| L8W8JWT_SIGNATURE_VERIFICATION_FAILURE)) = (rc, v'))
    (hq : Q (.int rc) ⟨fr, heap, upd m V (some [.int v'.toNat]), k.base⟩) : VerOut Q fr heap m k.base V v vr := by
  match vr, hr with
  | .error _, hr => cases hr; rw [upd_self hv] at hq; exact hq
  | .ok true, hr => cases hr; rw [upd_self hv] at hq; exact hq
  | .ok false, hr => cases hr; exact hq

theorem wp_verSkip (env : Env) (fuel d : Nat) {n : Nat} {alg : Int} {sig : Ptr} {st : St} {R : Val → St → Prop} (hs : Pts globs m sv sig.bytes)
    (h5 : st.fr.getD 5 .undef = .int alg) (h2 : st.fr.getD 2 .undef = sv) (h3 : st.fr.getD 3 .undef = .int n)
    (hq : R (.ofBool (decide (alg = -1 ∨ sig.isNone = true ∨ n = 0))) st) : WP (eval (cx env fuel d) verSkip) s st R := by
  unfold verSkip
  xp
  rw [h5]
  have h3' : decide ((n : Int) = 0) = decide (n = 0) := by
    by_cases h : n = 0
    · subst h; rfl
    · rw [decide_eq_false h, decide_eq_false (by omega)]
  by_cases ha : alg = -1
  · subst ha
    xp
    simpa using hq
  · xp
    rw [h2]
    cases sig with
    | none =>
      cases hs
      xp
      simpa [ha] using hq
    | some b =>
      obtain ⟨B, o, l, rfl, -⟩ := hs
      xp
      rw [h3]
      xp
      simpa [ha, h3'] using hq

/-- The frame of `l8w8jwt_verify_signature` after its buffer has been set up. -/
def verFr0 (P V : Blk) (sv : Val) (n : Nat) (k : Lay) (alg : Int) (v9 : Val) (rest : List Val) : List Val :=
  .ptr (some (P, 0)) :: .ptr (some (V, 0)) :: sv :: .int n :: .int 0 :: .int alg :: .int 0 :: loc k 0 :: loc k 1 :: v9 :: .undef :: (List.replicate 11 .undef ++ rest)

/-- decode.c:494-737, for the buffer on the stack and for that on the heap. -/
theorem wp_verMain (env : Env) (fuel d : Nat) {n : Nat} {h' heap0 : Heap} {mem0 : Blk → Option (List Val)} {Q : Val → St → Prop} {vr : VerRes}
    (hc : VerCtx m k P V q w sv sig v tok) (hh : NewHeap m k heap) (hn0 : 0 < q.verificationKeyLength) (hn : n < 18446744073709551616) (hfu : 100 < fuel)
    (ev : verifyBody env q sig n = .ok vr) (hfin : VerFin env k s heap h') (hout : VerOut Q fr h' m k.base V v vr) :
    WP (exec (cx env fuel (d + 1)) (pre verSeed (.seq verCrt (pre verMd (pre verDot (verAlgs env.eddsa env.smallStack))))) .run) s
      ⟨verFr0 P V sv n k q.alg (loc k 2) (edVar env.eddsa), heap, stkMem m k [pkNone, pkNone, zeros 8192], k + 3⟩
      (Return ⟨fr, heap0, mem0, k.base⟩ Q) := by
  unfold verifyBody at ev
  obtain ⟨⟨key, kl⟩, ek, ev⟩ := res_inv ev
  obtain ⟨mem, hkey, hkl, hk8, hbuf, c, hc1, hc2⟩ := loadKey_inv ek
  simp only at hbuf hc1 hc2 ev
  obtain ⟨co, ec, ev⟩ := res_inv ev
  have hkeyl : key.length = 8192 := by
    rw [hbuf, List.length_append, List.length_take, List.length_drop, List.length_replicate]; omega
  unfold verSeed verFr0
  simp only [List.replicate, List.cons_append, List.nil_append]
  xp
  refine hc.wpPar env fuel (d + 1) (i := 18) (by decide) rfl (asTy_u64 _ hc.dec.keyLength) ?_
  have hkm := fun ex => (hc.decAt (ex := ex)).key
  rw [hkey] at hkm
  have hnul := nul_some (hkm [])
  rw [hnul] at hkm
  have hasT : asTy env.charSigned .ptr w.key = .ok w.key := by
    obtain ⟨b, o, l, hw, -⟩ := hkm []
    rw [hw]; rfl
  xp
  refine hc.wpPar env fuel (d + 1) (i := 17) (by decide) rfl hasT ?_
  xp
  refine wp_memcpyStk env fuel (d + 1) (i := 2) (l := zeros 8192) (hkm _) hkl rfl (by rw [zeros_length]; exact hk8) ?_
  rw [poke_key mem q.verificationKeyLength _ hkl, ← hbuf]
  show Then _ _ s _ _ ⟨verFr P V sv n k (.int 0) q.alg false q.verificationKeyLength (List.replicate 11 .undef ++ edVar env.eddsa), heap,
    stkMem m k [pkNone, pkNone, cells key], k + 3⟩
  unfold verFr
  simp only [List.replicate, List.cons_append, List.nil_append]
  xp
  have hidx : (cells key)[((q.verificationKeyLength : Int) - 1).toNat]? = some (.int c.toNat) := by
    rw [show ((q.verificationKeyLength : Int) - 1).toNat = q.verificationKeyLength - 1 by omega]
    simp [cells, hc1]
  refine wp_ld (c := cx env fuel (d + 1)) (b := k.blk 2) (l := cells key) ((cont_own (k.blk_own 2)).trans (stk_get 2)) (by omega) hidx (asTy_u8 _ c.toNat_lt) ?_
  xp
  have hkl2 : ((q.verificationKeyLength : Int) + if ¬ (c.toNat : Int) = 0 then 1 else 0) = (kl : Nat) := by
    rw [hc2]
    have : (c = 0) ↔ c.toNat = 0 := ⟨fun h => by rw [h]; rfl, fun h => UInt8.toNat_inj.1 h⟩
    by_cases h : c = 0
    · have h' := this.1 h
      have e1 : ¬ c ≠ 0 := fun g => g h
      have e2 : ¬ ¬ (c.toNat : Int) = 0 := by omega
      rw [if_neg e1, if_neg e2]; omega
    · have e2 : ¬ (c.toNat : Int) = 0 := fun h' => h (this.2 (by omega))
      rw [if_pos h, if_pos e2]; omega
  have hkl3 : 1 ≤ kl ∧ kl ≤ 8193 := by
    rw [hc2]; split <;> omega
  rw [hkl2]
  unfold loadCrt at ec
  obtain ⟨isc, e1, ec⟩ := res_inv ec
  refine wp_strstr env fuel (d + 1) (n := 27) (pts_stk (b := key) rfl) (pts_lit _ _) (by rfl) (by exact e1) ?_
  have hmore : ∀ (co' : Option env.crypto.PK) (pk crt : List Val) (r0 : Val), co = .ok co' → VerPk env.crypto co' pk → pk.length = 4 → crt.length = 4 →
      WP (exec (cx env fuel (d + 1)) (pre verMd (pre verDot (verAlgs env.eddsa env.smallStack))) .run) s
        ⟨verFr P V sv n k r0 q.alg co'.isSome kl (List.replicate 11 .undef ++ edVar env.eddsa), heap, stkMem m k [pk, crt, cells key], k + 3⟩
        (Return ⟨fr, heap0, mem0, k.base⟩ Q) := by
    intro co' pk crt r0 hco hpk hpl hcrt
    subst hco
    obtain ⟨j, ej, ev⟩ := res_inv ev
    rw [hc.jwt] at ej
    cases ej
    exact wp_verMd env fuel d hc hh hkeyl hpk hpl hcrt hkl3.1 (by omega) (by omega) hn ev hfin hout
  simp only [verFr, List.replicate, List.cons_append, List.nil_append] at hmore
  cases isc with
  | false =>
    simp only [Bool.false_eq_true, if_false] at ec
    cases ec
    unfold verCrt
    xp
    rw [wp_if]
    xp
    exact hmore none pkNone pkNone _ rfl rfl rfl rfl
  | true =>
    simp only [if_true] at ec
    obtain ⟨kb, e2, ec⟩ := res_inv ec
    obtain ⟨hkb, rfl⟩ := rdN_inv e2
    unfold verCrt
    xp
    rw [wp_if]
    xp
    refine wp_parseCrt env fuel (d + 1) (i := 1) rfl (pts_stk (b := key) rfl) hkb ?_ ?_
    · intro h0
      rw [h0] at ec
      cases ec
      cases ev
      xp
      refine wp_verFail (r := -1) rfl (fun h => absurd h (by decide)) fun _ => ?_
      rw [then_next, skip_stmt (by rfl), then_next, skip_pre (by rfl), skip_pre (by rfl)]
      unfold verAlgs verEnd
      rw [wp_seq, skip_stmt (by rfl), then_next, wp_seq, skip_stmt (by rfl), then_next, wp_seq, skip_stmt (by rfl), then_next]
      exact wp_verExit (ex := [pkNone, pkNone, cells key]) env fuel d (ic := true) (rest := List.replicate 11 .undef ++ edVar env.eddsa) (.inr rfl) hc.stk hc.lay
        ⟨⟨_, rfl, rfl⟩, ⟨_, rfl, rfl⟩, ⟨_, rfl, by rw [cells_length, hkeyl]⟩⟩ hfin hout
    · intro pk h1
      rw [h1] at ec
      cases ec
      xp
      refine wp_verFail (r := 0) rfl (fun _ => ?_) fun h => absurd rfl h
      xp
      refine wp_readStk (l := pkCells 3 (key.take kl) none) rfl rfl ?_
      refine wp_writeStk (l := pkNone) rfl rfl ?_
      xp
      exact hmore (some pk) (pkCells 3 (key.take kl) none) (pkCells 3 (key.take kl) none) _ rfl (pkIs_crt h1) rfl rfl

theorem VerCtx.ext {k n : Nat} {hs : List Nat} {hn : hs.Nodup} (hc : VerCtx m (Lay.of k) P V q w sv sig v tok) (hl : n + hs.length ≤ 3)
    (hm : ∀ a ∈ hs, m (.heap a) = none) : VerCtx m (Lay.ext k n hs hn) P V q w sv sig v tok :=
  ⟨hc.dec, ext_none hc.stk hm, by rw [Lay.ext_len]; exact hl, hc.own, hc.val, hc.sig, hc.jwt, hc.len⟩

/-- decode.c:464-737 -/
theorem wp_verify_signature (env : Env) (fuel d : Nat) {n k : Nat} {sig : Ptr} {rc : Nat} {v' : VRes} {h' : Heap} {Q : Val → St → Prop}
    (hd : DecAt m P q w) (hs : ∀ j, m ((Lay.of k).blk j) = none) (hh : ∀ i, heap.tick ≤ i → m (.heap i) = none) (hV : V.own = true)
    (hv : m V = some [.int v.toNat]) (hsg : Pts globs m sv sig.bytes) (hj : q.jwt = some tok) (hjl : tok.length < 18446744073709551616)
    (hn0 : 0 < q.verificationKeyLength) (hn : n < 18446744073709551616) (hfu : 100 < fuel)
    (hr : verifySignature env q v sig n s heap = .ok ((rc, v'), h')) (hq : Q (.int rc) ⟨fr, h', upd m V (some [.int v'.toNat]), k⟩) :
    WP ((cx env fuel (d + 2)).call "l8w8jwt_verify_signature" [.ptr (some (P, 0)), .ptr (some (V, 0)), sv, .int n]) s ⟨fr, heap, m, k⟩ Q := by
  rw [cx_fun _ _ _ (fn := verFun env.eddsa env.smallStack) rfl]
  apply wp_runFun
  rw [verFun_body]
  rw [verFun_slots]
  simp only [List.replicate, List.cons_append, List.nil_append]
  have hP : cont globs m P = some (decCells q w) := by rw [cont_own hd.own, hd.cells]
  unfold verStart
  xp
  refine wp_ld (c := cx env fuel (d + 1)) (b := P) (l := decCells q w) (by exact hP) (by omega) (by rfl) (asTy_i32 _ hd.alg.1 hd.alg.2) ?_
  rw [then_next, wp_pre0, wp_seq, wp_if]
  refine wp_verSkip env fuel (d + 1) (m := m) hsg rfl rfl rfl ?_
  unfold verifySignature at hr
  by_cases hskip : q.alg = -1 ∨ sig.isNone = true ∨ n = 0
  · rw [if_pos hskip] at hr
    obtain ⟨e, rfl⟩ := M.pure_inv hr
    cases e
    rw [upd_self hv] at hq
    rw [decide_eq_true hskip]
    have hdrop : dropStack k m = m := by
      have := drop_stkMem (ex := []) hs
      rw [← stk_nil hs] at this
      exact this
    xp
    rw [hdrop]
    exact hq
  rw [if_neg hskip] at hr
  rw [decide_eq_false hskip]
  cases sig with
  | none => exact absurd (.inr (.inl rfl)) hskip
  | some blk =>
    obtain ⟨sg, es, hr⟩ := M.liftBind_inv hr
    rw [deref_inv es] at hsg
    have hc : VerCtx m (Lay.of k) P V q w sv sg v tok := ⟨hd, hs, Nat.zero_le _, hV, hv, hsg, hj, hjl⟩
    have hm0 : m = stkMem m (Lay.of k) [] := stk_nil hs
    xi []
    conv => arg 3; rw [hm0]
    unfold verInit
    rw [wp_pre, wp_setI, then_next, wp_pre]
    refine wp_declStk (n := 0) (Nat.zero_le _) rfl ?_
    xp
    refine wp_pkInit env fuel (d + 1) (i := 0) (l := List.replicate 4 .undef) rfl rfl ?_
    rw [then_next, wp_pre]
    refine wp_declStk (n := 1) (Nat.zero_le _) rfl ?_
    xp
    refine wp_crtInit env fuel (d + 1) (i := 1) (l := List.replicate 4 .undef) rfl rfl ?_
    rw [then_next, wp_pre0]
    show WP _ s ⟨_, heap, stkMem m (Lay.of k) [pkNone, pkNone], Lay.of k + 2⟩ _
    cases hss : env.smallStack with
    | false =>
      simp only [hss, Bool.false_eq_true, if_false] at hr
      obtain ⟨vr, ev, hr⟩ := M.liftBind_inv hr
      obtain ⟨e, rfl⟩ := M.pure_inv hr
      simp only [verBuf, Bool.false_eq_true, if_false]
      rw [wp_pre]
      refine wp_declStk (n := 2) (Nat.zero_le _) rfl ?_
      rw [zeros_decl 8191, then_next, wp_pre0, ← hss]
      refine wp_verMain env fuel d hc (fun i hi => ⟨hh i hi, fun j e => ?_⟩) hn0 hn hfu ev (.inl ⟨hss, rfl, k, rfl⟩) (verOut_upd hv e hq)
      rw [Lay.of_blk] at e; cases e
    | true =>
      simp only [hss, if_true] at hr
      obtain ⟨pa, ha, e1, hr⟩ := M.bind_inv hr
      obtain ⟨vr, h1, e2, hr⟩ := M.bind_inv hr
      obtain ⟨_, e3, hr⟩ := M.liftBind_inv hr
      obtain ⟨_, h2, e4, hr⟩ := M.bind_inv hr
      obtain ⟨e, rfl⟩ := M.pure_inv hr
      unfold alloc at e1
      split at e1
      · cases e1
        cases e3
      · rename_i hfa
        cases e1
        simp only [Option.isNone_some, Bool.false_eq_true, if_false] at e2
        obtain ⟨ev, rfl⟩ := M.lift_inv e2
        simp only [verBuf, if_true]
        rw [stkMem_ext0 (n := 2)]
        xp
        refine wp_calloc env fuel (d + 1) ?_
        simp only
        rw [if_neg hfa, show (1 : Int).toNat * (8192 : Int).toNat = 8192 from rfl, zeros_calloc, stkMem_push (a := heap.tick) (by simp) (by rfl)]
        rw [then_next, wp_pre]
        refine wp_verElse ?_
        xp
        refine vtest_false rfl ?_
        rw [then_next, wp_pre0, ← hss]
        have hm : ∀ a ∈ [] ++ [heap.tick], m (.heap a) = none := by
          intro a ha
          have : a = heap.tick := by simpa using ha
          exact hh _ (by omega)
        have hlt : ∀ a ∈ [] ++ [heap.tick], a < heap.tick + 1 := by
          intro a ha
          have : a = heap.tick := by simpa using ha
          omega
        have hl2 : loc (Lay.ext k 2 ([] ++ [heap.tick]) (by simp)) 2 = .ptr (some (.heap heap.tick, 0)) := by
          show Val.ptr (some (_, 0)) = _
          rw [Lay.ext_heap (n := 2) (i := 0) rfl]
        have := wp_verMain env fuel d (k := Lay.ext k 2 ([] ++ [heap.tick]) (by simp)) (mem0 := m) (heap0 := heap) (hc.ext (by simp) hm)
          (heap := ⟨heap.tick + 1, heap.tick :: heap.live⟩)
          (ext_new (fun i hi => hh i (Nat.le_trans (Nat.le_add_right _ 1) hi)) hlt) hn0 hn hfu ev (.inr ⟨hss, k, _, _, _, rfl, e4⟩) (verOut_upd hv e hq)
        unfold verFr0 at this
        rw [hl2, ← loc_ext (by omega), ← loc_ext (by omega)] at this
        exact this

end

end L8w8jwt.C
