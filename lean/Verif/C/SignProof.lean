import Verif.C.SignText
/-!
# The algorithms of write_signature (src/encode.c:275-554): text and model
-/

namespace L8w8jwt.C
open L8w8jwt L8w8jwt.C.Src

/-- The memory of the caller during `write_signature`. -/
structure SigCtx (m : Blk → Option (List Val)) (k : Lay) (B P : Blk) (bid : Nat) (sb : Bytes) (p : EncParams) (w : EncPtrs)
    (base : Blk → Option (List Val)) : Prop where
  buf : BufAt m B bid 1024 sb
  Bs : ∀ j, B ≠ k.blk j
  bs : ∀ j, .heap bid ≠ k.blk j
  lay : k.pre.length ≤ 8
  over : Over base m
  stk : ∀ j, base (k.blk j) = none
  enc : EncAt base P p w
  len : sb.length < 18446744073709551616

/-- What is allocated later is new. -/
def NewHeap (m : Blk → Option (List Val)) (k : Lay) (heap : Heap) : Prop := ∀ i, heap.tick ≤ i → m (.heap i) = none ∧ ∀ j, Blk.heap i ≠ k.blk j

/-- The local variables of `write_signature` at the label `exit`. -/
structure SigEx (ex : List (List Val)) : Prop where
  sig : ex[0]? = some [.ptr none]
  sigLen : ex[1]? = some [.int 0]
  bytesLen : ∃ v, ex[2]? = some [v]
  pk : ∃ l, ex[3]? = some l ∧ l.length = 4
  entropy : ∃ v, ex[4]? = some [v]
  drbg : ∃ v, ex[5]? = some [v]
  key : ∃ l, ex[7]? = some l ∧ l.length = 8192

/-- The local variables in the frame. -/
def sigFr (B P : Blk) (k : Lay) (r : Val) (alg : Int) (kl : Nat) (rest : List Val) : List Val :=
  .ptr (some (B, 0)) :: .ptr (some (P, 0)) :: r :: .int alg :: loc k 0 :: loc k 1 :: loc k 2 :: .int kl :: loc k 3 :: loc k 4 :: loc k 5 ::
    loc k 6 :: loc k 7 :: rest

/-- The local objects of the algorithms. -/
def sigO (bl : Val) (pk sgb : List Val) (key : Bytes) (md : Md) (hash : List Val) : List (List Val) :=
  [[.ptr none], [.int 0], [bl], pk, [.int 0], [.int 1], sgb, cells key, [.int md.len], [.int (mdCode md)], [mdInfo (some md)], hash]

/-- The local objects before the `switch`. -/
def sigObj (key : Bytes) (md : Md) : List (List Val) := sigO (.int 0) pkNone (zeros 4096) key md (zeros 64)

theorem sigEx_O {bl : Val} {pk sgb : List Val} {key : Bytes} {md : Md} {hash : List Val} {l : List (List Val)} (h : key.length = 8192)
    (hp : pk.length = 4) : SigEx (sigO bl pk sgb key md hash ++ l) :=
  ⟨rfl, rfl, ⟨_, rfl⟩, ⟨_, rfl, hp⟩, ⟨_, rfl⟩, ⟨_, rfl⟩, ⟨_, rfl, by rw [cells_length, h]⟩⟩

/-- The slots 13 to 22. -/
def mdFr (k : Lay) (rest : List Val) : List Val := loc k 8 :: loc k 9 :: loc k 10 :: loc k 11 :: rest

/-- The end of a `case`: `goto exit` with an error code, or `break` with the signature in `signature_bytes`. -/
def SigPost (c : Ctx) (K : Stmt) (m : Blk → Option (List Val)) (k : Lay) (B P : Blk) (alg : Int) (kl : Nat) (heap : Heap) (s : Sched)
    (Q : Ctl → St → Prop) : SigRes → Prop
  | .error rc => ∀ rest ex, SigEx ex → WP (exec c K (.label "exit")) s ⟨sigFr B P k (.int rc) alg kl rest, heap, stkMem m k ex, k + ex.length⟩ Q
  | .ok sig => ∀ r rest ex pad, SigEx ex → ex[2]? = some [.int sig.length] → ex[6]? = some (cells (sig ++ pad)) → sig.length ≤ 4096 →
      Q .brk ⟨sigFr B P k r alg kl rest, heap, stkMem m k ex, k + ex.length⟩

section
variable {m : Blk → Option (List Val)} {k : Lay} {B P : Blk} {bid : Nat} {sb : Bytes} {p : EncParams} {w : EncPtrs}
  {base : Blk → Option (List Val)} {s : Sched} {heap : Heap} {ex : List (List Val)} {fr : List Val} {stk : Nat}

theorem SigCtx.encAt (h : SigCtx m k B P bid sb p w base) : EncAt (stkMem m k ex) P p w := h.enc.over (stk_over h.over h.stk)

theorem SigCtx.bufAt (h : SigCtx m k B P bid sb p w base) : BufAt (stkMem m k ex) B bid 1024 sb := stk_buf h.buf h.Bs h.bs

theorem SigCtx.wpBuf (h : SigCtx m k B P bid sb p w base) (env : Env) (fuel d : Nat) {Q : Val → St → Prop}
    (hq : Q (.ptr (some (.heap bid, 0))) ⟨fr, heap, stkMem m k ex, stk⟩) :
    WP (loadV (cx env fuel d) .ptr (.ptr (some (B, 0)))) s ⟨fr, heap, stkMem m k ex, stk⟩ Q := by
  obtain ⟨ho, -, -, ⟨g, h1⟩, -⟩ := h.bufAt (ex := ex)
  exact wp_loadV (c := cx env fuel d) ((cont_own ho).trans h1) (by omega) (by rfl) rfl hq

theorem SigCtx.wpLen (h : SigCtx m k B P bid sb p w base) (env : Env) (fuel d : Nat) {Q : Val → St → Prop}
    (hq : Q (.int sb.length) ⟨fr, heap, stkMem m k ex, stk⟩) :
    WP (paddV (cx env fuel d) (.ptr (some (B, 0))) 1) s ⟨fr, heap, stkMem m k ex, stk⟩
      (fun x st1 => WP (loadV (cx env fuel d) (.int .u64) x) s st1 Q) := by
  obtain ⟨ho, -, -, ⟨g, h1⟩, -⟩ := h.bufAt (ex := ex)
  exact wp_ld (c := cx env fuel d) ((cont_own ho).trans h1) (by omega) (by rfl) (asTy_u64 _ h.len) hq

theorem SigCtx.msg (h : SigCtx m k B P bid sb p w base) : ∃ l, Pts globs (stkMem m k ex) (.ptr (some (.heap bid, 0))) (some (sb ++ l)) := by
  obtain ⟨-, -, -, -, rest, h2⟩ := h.bufAt (ex := ex)
  exact ⟨toBytes rest, _, 0, _, rfl, (cont_own rfl).trans h2, Nat.zero_le _, by rw [bytesFrom, List.drop_zero, toBytes_cells_append]⟩

theorem SigCtx.wpPar (h : SigCtx m k B P bid sb p w base) (env : Env) (fuel d : Nat) {i : Int} {t : STy} {v v' : Val} {Q : Val → St → Prop}
    (h0 : 0 ≤ i) (hv : (encCells p w)[i.toNat]? = some v) (ht : asTy env.charSigned t v = .ok v')
    (hq : Q v' ⟨fr, heap, stkMem m k ex, stk⟩) :
    WP (paddV (cx env fuel d) (.ptr (some (P, 0))) i) s ⟨fr, heap, stkMem m k ex, stk⟩
      (fun x st1 => WP (loadV (cx env fuel d) t x) s st1 Q) :=
  wp_ld (c := cx env fuel d) ((cont_own h.enc.own).trans (h.encAt (ex := ex)).cells) h0 hv ht hq

theorem SigCtx.wpAlg (h : SigCtx m k B P bid sb p w base) (env : Env) (fuel d : Nat) {Q : Val → St → Prop}
    (hq : Q (.int p.alg) ⟨fr, heap, stkMem m k ex, stk⟩) :
    WP (loadV (cx env fuel d) (.int .i32) (.ptr (some (P, 0)))) s ⟨fr, heap, stkMem m k ex, stk⟩ Q :=
  wp_loadV (c := cx env fuel d) ((cont_own h.enc.own).trans (h.encAt (ex := ex)).cells) (by omega) (by rfl)
    (asTy_i32 _ h.enc.alg.1 h.enc.alg.2) hq

/-- Reading a local variable. -/
theorem wp_getStk (env : Env) (fuel d : Nat) {i : Nat} {t : STy} {v v' : Val} {l : List Val} {Q : Val → St → Prop} (h : ex[i]? = some (v :: l))
    (ht : asTy env.charSigned t v = .ok v') (hq : Q v' ⟨fr, heap, stkMem m k ex, stk⟩) :
    WP (loadV (cx env fuel d) t (loc k i)) s ⟨fr, heap, stkMem m k ex, stk⟩ Q :=
  wp_loadV (c := cx env fuel d) ((cont_own (k.blk_own i)).trans ((stk_get i).trans h)) (by omega) (by rfl) ht hq

/-- An address within a local object. -/
theorem wp_addStk (env : Env) (fuel d : Nat) {i j : Nat} {l : List Val} {Q : Val → St → Prop} (h : ex[i]? = some l) (hj : j ≤ l.length)
    (hq : Q (.ptr (some (k.blk i, (j : Int)))) ⟨fr, heap, stkMem m k ex, stk⟩) :
    WP (paddV (cx env fuel d) (loc k i) (j : Int)) s ⟨fr, heap, stkMem m k ex, stk⟩ Q := by
  refine wp_paddV (c := cx env fuel d) ((cont_own (k.blk_own i)).trans ((stk_get i).trans h)) (by omega) (by omega) ?_
  rw [Int.zero_add]
  exact hq

/-- Writing a local variable. -/
theorem wp_putStk (env : Env) (fuel d : Nat) {i : Nat} {t : STy} {u v v' : Val} {Q : Unit → St → Prop} (h : ex[i]? = some [u])
    (ht : toCell t v = .ok v') (hq : Q () ⟨fr, heap, stkMem m k (ex.set i [v']), stk⟩) :
    WP (storeV (cx env fuel d) t (loc k i) v) s ⟨fr, heap, stkMem m k ex, stk⟩ Q := by
  have hi : i < ex.length := by
    rcases Nat.lt_or_ge i ex.length with hl | hl
    · exact hl
    · rw [List.getElem?_eq_none hl] at h; cases h
  refine wp_storeV (b := k.blk i) (k.blk_own i) ((stk_get i).trans h) (by omega) (by simp) ht ?_
  simp only [stk_set hi]
  exact hq

theorem asTy_info (cs : Bool) (md : Md) : asTy cs .ptr (mdInfo (some md)) = .ok (mdInfo (some md)) := by cases md <;> rfl
theorem asTy_mdCode (cs : Bool) (md : Md) : asTy cs (.int .u32) (.int (mdCode md)) = .ok (.int (mdCode md)) := by cases md <;> rfl
theorem asTy_mdLen (cs : Bool) (md : Md) : asTy cs (.int .u64) (.int (md.len : Nat)) = .ok (.int (md.len : Nat)) := by cases md <;> rfl

theorem digest_pad (md : Md) (h : Bytes) : digest md h = (padTo 4096 h).take md.len := by
  have hl : md.len ≤ 64 := by cases md <;> decide
  simp only [digest, padTo]
  rw [List.take_append, List.take_append]
  congr 1
  simp only [List.take_replicate]
  congr 1
  omega

theorem encMd_hmac {alg : Int} {md : Md} (h : encMd alg = some md) (ha : alg = 0 ∨ alg = 1 ∨ alg = 2) : 32 + 16 * alg = md.len := by
  rcases ha with rfl | rfl | rfl <;> (cases h; rfl)

/-- encode.c:276-295 -/
theorem wp_signHmac (env : Env) (fuel d : Nat) (hc : SigCtx m k B P bid sb p w base) {K : Stmt} {kl : Nat} {key : Bytes} {md : Md}
    {rest : List Val} {Q : Ctl → St → Prop} {sr : SigRes} {r0 : Val} (hkey : key.length = 8192) (hmd : encMd p.alg = some md)
    (ha : p.alg = 0 ∨ p.alg = 1 ∨ p.alg = 2) (hkl : 1 ≤ kl) (hkl' : kl < 18446744073709551616)
    (hr : signHmac env.crypto p.alg md key kl sb = .ok sr) (hq : SigPost (cx env fuel d) K m k B P p.alg kl heap s Q sr) :
    WP (exec (cx env fuel d) (pre hmacL K) (.case p.alg)) s
      ⟨sigFr B P k r0 p.alg kl (mdFr k rest), heap, stkMem m k (sigObj key md), k + 12⟩ Q := by
  obtain ⟨x, e1, hr⟩ := res_inv hr
  obtain ⟨hx, rfl⟩ := rdN_inv e1
  have hlen := encMd_hmac hmd ha
  have hl64 : md.len ≤ 64 := by cases md <;> decide
  rw [show hmacL = [0, 1, 2].map Stmt.case ++ hmacL.drop 3 from rfl, pre_hit _ _ (by simpa using ha)]
  simp only [hmacL, List.drop]
  unfold sigFr mdFr
  xp
  refine wp_getStk env fuel d (i := 10) (by rfl) (asTy_info _ md) ?_
  xp
  refine hc.wpBuf env fuel d ?_
  xp
  refine hc.wpLen env fuel d ?_
  xp
  obtain ⟨l, hmsg⟩ := hc.msg (ex := sigObj key md)
  have e1 : ((kl : Int) - 1) = ((kl - 1 : Nat) : Int) := by omega
  rw [e1]
  have hkp : Pts globs (stkMem m k (sigObj key md)) (loc k 7) (some key) := pts_stk rfl
  refine wp_hmac env fuel d (i := 6) (l := zeros 4096) hkp hx hmsg (by simp) rfl (by rw [zeros_length]; omega) ?_ ?_
  · rw [List.take_left]
    intro h0
    rw [h0] at hr
    cases hr
    xp
    refine wp_failIf rfl (fun h => absurd h (by decide)) fun _ => ?_
    rw [then_next, skip_pre (by rfl)]
    exact hq (mdFr k rest) (sigO (.int 0) pkNone (zeros 4096) key md (zeros 64) ++ []) (sigEx_O hkey rfl)
  · rw [List.take_left]
    intro y h1
    rw [h1] at hr
    cases hr
    xp
    refine wp_failIf rfl (fun _ => ?_) fun h => absurd rfl h
    xp
    refine hc.wpAlg env fuel d ?_
    xp
    rw [hlen]
    refine wp_putStk env fuel d (i := 2) (u := .int 0) rfl rfl ?_
    xp
    have e2 : (32 + 16 * p.alg.toNat) = md.len := by omega
    rw [e2, ← digest_pad] at hq
    refine hq (.int 0) (mdFr k rest) (sigO (.int (md.len : Nat)) pkNone (poke (zeros 4096) 0 (cells (digest md y))) key md (zeros 64) ++ [])
      ((List.replicate 4096 0).drop (digest md y).length) (sigEx_O hkey rfl) (by rw [digest_length]; rfl) ?_ (by rw [digest_length]; omega)
    rw [zeros, poke_zero]
    rfl

theorem nul_nul (v : Val) : nul (nul v) = nul v := by
  have h : ∀ u : Val, u ≠ .int 0 → nul u = u := by
    intro u hu
    unfold nul
    split
    · exact absurd rfl hu
    · rfl
  by_cases hv : v = .int 0
  · subst hv; rfl
  · rw [h v hv, h v hv]

/-- The key is parsed. -/
def parseE : Stmt :=
  .exp (.set 2 (callE "mbedtls_pk_parse_key" [.loc 8, .loc 12, .loc 7, .load .ptr (memE 18), .load (.int .u64) (memE 19), rngE, .loc 10]))

theorem wp_sigKey (env : Env) (fuel d : Nat) (hc : SigCtx m k B P bid sb p w base) {K : Stmt} {L : List Stmt} {l : String} {kl : Nat} {key : Bytes}
    {pw : Option Bytes} {rest : List Val} {Q : Ctl → St → Prop} {r0 : Val}
    (hpk : ex[3]? = some pkNone) (hrng : ex[5]? = some [.int 1]) (hk : ex[7]? = some (cells key)) (hkl : kl ≤ key.length)
    (hpw : pwArg p.secretKeyPw p.secretKeyPwLength = .ok pw)
    (h0 : env.crypto.parseKey (key.take kl) pw = none →
      WP (exec (cx env fuel d) (pre L K) (.label l)) s ⟨sigFr B P k (.int 420) p.alg kl rest, heap, stkMem m k ex, stk⟩ Q)
    (h1 : ∀ pk, env.crypto.parseKey (key.take kl) pw = some pk →
      WP (exec (cx env fuel d) (pre L K) .run) s
        ⟨sigFr B P k (.int 0) p.alg kl rest, heap, stkMem m k (ex.set 3 (pkCells 1 (key.take kl) pw)), stk⟩ Q) :
    WP (exec (cx env fuel d) (pre (parseE :: failIf 420 l :: L) K) .run) s ⟨sigFr B P k r0 p.alg kl rest, heap, stkMem m k ex, stk⟩ Q := by
  unfold sigFr parseE
  xp
  refine hc.wpPar env fuel d (i := 18) (by decide) rfl (asTy_nul _ (hc.enc.pw)) ?_
  xp
  refine hc.wpPar env fuel d (i := 19) (by decide) rfl (asTy_u64 _ hc.enc.pwLength) ?_
  xp
  refine wp_parseKey env fuel d hpk hrng (pts_stk hk) hkl (by rw [nul_nul]; exact (hc.encAt (ex := ex)).pw) hpw (fun e => ?_) fun pk e => ?_
  · xp
    refine wp_failIf rfl (fun h => absurd h (by decide)) fun _ => ?_
    rw [then_next]
    exact h0 e
  · xp
    refine wp_failIf rfl (fun _ => ?_) fun h => absurd rfl h
    rw [then_next]
    exact h1 pk e

/-- The message is hashed. -/
def hashE : Stmt :=
  .exp (.set 2 (callE "mbedtls_md" [.load .ptr (.loc 15), .load .ptr (.loc 0), .load (.int .u64) (.padd 1 (.loc 0) (.num 1)), .loc 16]))

theorem wp_sigHash (env : Env) (fuel d : Nat) (hc : SigCtx m k B P bid sb p w base) {K : Stmt} {L : List Stmt} {l : String} {kl : Nat} {md : Md}
    {rest : List Val} {Q : Ctl → St → Prop} {r0 : Val} (hi : ex[10]? = some [mdInfo (some md)]) (hz : ex[11]? = some (zeros 64))
    (h0 : hashOf env.crypto md sb = none →
      WP (exec (cx env fuel d) (pre L K) (.label l)) s ⟨sigFr B P k (.int 410) p.alg kl (mdFr k rest), heap, stkMem m k ex, stk⟩ Q)
    (h1 : ∀ hash, hashOf env.crypto md sb = some hash → hash.length = md.len →
      WP (exec (cx env fuel d) (pre L K) .run) s
        ⟨sigFr B P k (.int 0) p.alg kl (mdFr k rest), heap, stkMem m k (ex.set 11 (cells (padTo 64 hash))), stk⟩ Q) :
    WP (exec (cx env fuel d) (pre (hashE :: failIf 410 l :: L) K) .run) s ⟨sigFr B P k r0 p.alg kl (mdFr k rest), heap, stkMem m k ex, stk⟩ Q := by
  unfold sigFr mdFr hashE
  xp
  refine wp_getStk env fuel d (i := 10) hi (asTy_info _ md) ?_
  xp
  refine hc.wpBuf env fuel d ?_
  xp
  refine hc.wpLen env fuel d ?_
  xp
  obtain ⟨l, hmsg⟩ := hc.msg (ex := ex)
  refine wp_md env fuel d (i := 11) (l := zeros 64) hmsg (by simp) hz (zeros_length 64) ?_ ?_
  · rw [List.take_left]
    intro e
    xp
    refine wp_failIf rfl (fun h => absurd h (by decide)) fun _ => ?_
    rw [then_next]
    exact h0 (by rw [hashOf, e]; rfl)
  · rw [List.take_left]
    intro x e
    xp
    refine wp_failIf rfl (fun _ => ?_) fun h => absurd rfl h
    rw [then_next]
    have := h1 (digest md x) (by rw [hashOf, e]; rfl) (digest_length md x)
    rw [zeros, poke_zero]
    have e2 : (digest md x) ++ (List.replicate 64 0).drop (digest md x).length = padTo 64 (digest md x) := by
      rw [padTo, List.drop_replicate]
    rw [e2]
    exact this

/-- encode.c:296-340 -/
theorem wp_signRsa (env : Env) (fuel d : Nat) (hc : SigCtx m k B P bid sb p w base) {K : Stmt} {kl : Nat} {key : Bytes} {md : Md} {pw : Option Bytes}
    {rest : List Val} {Q : Ctl → St → Prop} {sr : SigRes} {r0 : Val} (hkey : key.length = 8192)
    (ha : p.alg = 3 ∨ p.alg = 4 ∨ p.alg = 5) (hpw : pwArg p.secretKeyPw p.secretKeyPwLength = .ok pw)
    (hr : signRsa env.crypto md key kl pw sb = .ok sr) (hq : SigPost (cx env fuel d) K m k B P p.alg kl heap s Q sr) :
    WP (exec (cx env fuel d) (pre rsaL K) (.case p.alg)) s
      ⟨sigFr B P k r0 p.alg kl (mdFr k rest), heap, stkMem m k (sigObj key md), k + 12⟩ Q := by
  obtain ⟨x, e1, hr1⟩ := res_inv hr
  obtain ⟨hx, rfl⟩ := rdN_inv e1
  have hl64 : md.len ≤ 64 := by cases md <;> decide
  rw [show rsaL = [3, 4, 5].map Stmt.case ++ rsaL.drop 3 from rfl, pre_hit _ _ (by simpa using ha)]
  simp only [rsaL, List.drop]
  refine wp_sigKey env fuel d hc rfl rfl rfl hx hpw (fun e => ?_) fun pk e => ?_
  · rw [e] at hr1
    cases hr1
    rw [skip_pre (by rfl)]
    exact hq (mdFr k rest) (sigO (.int 0) pkNone (zeros 4096) key md (zeros 64) ++ []) (sigEx_O hkey rfl)
  · rw [e] at hr1
    have hpk : PkIs env.crypto (pkCells 1 (key.take kl) pw) pk := pkIs_key e
    rw [wp_pre]
    refine wp_orElse ?_
    unfold sigFr mdFr
    xp
    refine wp_canDo env fuel d (i := 3) (by rfl) hpk (Or.inl ⟨Or.inl rfl, rfl⟩) ?_
    cases hcan : env.crypto.canRsa pk with
    | false =>
      simp only [hcan, Bool.not_false, if_true] at hr1
      cases hr1
      xp
      refine wp_canDo env fuel d (i := 3) (by rfl) hpk (Or.inl ⟨Or.inr rfl, rfl⟩) ?_
      rw [hcan]
      xp
      refine test_true rfl ?_
      rw [then_next, skip_pre (by rfl)]
      exact hq (mdFr k rest) (sigO (.int 0) _ (zeros 4096) key md (zeros 64) ++ []) (sigEx_O hkey hpk.2)
    | true =>
      simp only [hcan, Bool.not_true] at hr1
      xp
      refine test_false rfl ?_
      rw [then_next, wp_pre]
      refine wp_orElse ?_
      xp
      refine wp_bitlen env fuel d (i := 3) (by rfl) hpk ?_
      xp
      by_cases hbl : env.crypto.bitlen pk < 2048
      · simp only [hbl, if_true, Bool.false_eq_true, if_false] at hr1
        cases hr1
        refine test_true (by rw [truth_ofBool]; simp; omega) ?_
        rw [then_next, skip_pre (by rfl)]
        exact hq (mdFr k rest) (sigO (.int 0) _ (zeros 4096) key md (zeros 64) ++ []) (sigEx_O hkey hpk.2)
      simp only [hbl, Bool.false_eq_true, if_false] at hr1
      refine test_false (by rw [truth_ofBool]; simp; omega) ?_
      rw [then_next]
      refine wp_sigHash env fuel d hc (rest := rest) rfl rfl (fun e => ?_) fun hash e hlen => ?_
      · rw [e] at hr1
        cases hr1
        rw [skip_pre (by rfl)]
        exact hq (mdFr k rest) (sigO (.int 0) _ (zeros 4096) key md (zeros 64) ++ []) (sigEx_O hkey hpk.2)
      simp only [e] at hr1
      unfold sigFr mdFr
      xp
      refine wp_getStk env fuel d (i := 9) (by rfl) (asTy_mdCode _ md) ?_
      xp
      refine wp_getStk env fuel d (i := 8) (by rfl) (asTy_mdLen _ md) ?_
      xp
      have hh : (padTo 64 hash).take md.len = hash := by rw [padTo, ← hlen, List.take_left]
      refine wp_pkSign env fuel d (i := 3) (j := 5) (a := 6) (b := 2) (e := 4096) (l' := zeros 4096) rfl hpk rfl (pts_stk rfl)
        (by simp [padTo]; omega) rfl (zeros_length _) rfl (by decide) (fun e => ?_) (fun x e hl => ?_) fun x e hl => ?_
      · rw [hh] at e
        rw [e] at hr1
        cases hr1
        xp
        refine wp_failIf rfl (fun h => absurd h (by decide)) fun _ => ?_
        rw [then_next, skip_pre (by rfl)]
        exact hq (mdFr k rest) (sigO (.int 0) _ (zeros 4096) key md _ ++ []) (sigEx_O hkey hpk.2)
      · rw [hh] at e
        rw [e] at hr1
        simp only [hl, if_true] at hr1
        cases hr1
        xp
        refine wp_failIf rfl (fun h => absurd h (by decide)) fun _ => ?_
        rw [then_next, skip_pre (by rfl)]
        exact hq (mdFr k rest) (sigO (.int 0) _ (zeros 4096) key md _ ++ []) (sigEx_O hkey hpk.2)
      · rw [hh] at e
        rw [e] at hr1
        simp only [Nat.not_lt.2 hl, if_false] at hr1
        cases hr1
        xp
        refine wp_failIf rfl (fun _ => ?_) fun h => absurd rfl h
        xp
        refine hq (.int 0) (mdFr k rest) (sigO (.int (x.length : Nat)) _ (poke (zeros 4096) 0 (cells x)) key md _ ++ [])
          ((List.replicate 4096 0).drop x.length) (sigEx_O hkey hpk.2) rfl ?_ hl
        rw [zeros, poke_zero]
        rfl

theorem wrAt_inv {m w r : Bytes} (h : wrAt m 0 w = .ok r) : w.length ≤ m.length ∧ r = w ++ m.drop w.length := by
  unfold wrAt at h
  split at h
  · cases h
    rename_i hl
    exact ⟨by omega, by simp⟩
  · cases h

/-- encode.c:341-383 -/
theorem wp_signPss (env : Env) (fuel d : Nat) (hc : SigCtx m k B P bid sb p w base) {K : Stmt} {kl : Nat} {key : Bytes} {md : Md} {pw : Option Bytes}
    {rest : List Val} {Q : Ctl → St → Prop} {sr : SigRes} {r0 v17 : Val} (hkey : key.length = 8192)
    (ha : p.alg = 6 ∨ p.alg = 7 ∨ p.alg = 8) (hpw : pwArg p.secretKeyPw p.secretKeyPwLength = .ok pw)
    (hr : signPss env.crypto md key kl pw sb = .ok sr) (hq : SigPost (cx env fuel d) K m k B P p.alg kl heap s Q sr) :
    WP (exec (cx env fuel d) (pre pssL K) (.case p.alg)) s
      ⟨sigFr B P k r0 p.alg kl (mdFr k (v17 :: rest)), heap, stkMem m k (sigObj key md), k + 12⟩ Q := by
  obtain ⟨x, e1, hr1⟩ := res_inv hr
  obtain ⟨hx, rfl⟩ := rdN_inv e1
  have hl64 : md.len ≤ 64 := by cases md <;> decide
  rw [show pssL = [6, 7, 8].map Stmt.case ++ pssL.drop 3 from rfl, pre_hit _ _ (by simpa using ha)]
  simp only [pssL, List.drop]
  refine wp_sigKey env fuel d hc rfl rfl rfl hx hpw (fun e => ?_) fun pk e => ?_
  · rw [e] at hr1
    cases hr1
    rw [skip_pre (by rfl)]
    exact hq (mdFr k (v17 :: rest)) (sigO (.int 0) pkNone (zeros 4096) key md (zeros 64) ++ []) (sigEx_O hkey rfl)
  · rw [e] at hr1
    have hpk : PkIs env.crypto (pkCells 1 (key.take kl) pw) pk := pkIs_key e
    rw [wp_pre]
    refine wp_orElse ?_
    unfold sigFr mdFr
    xp
    refine wp_canDo env fuel d (i := 3) (by rfl) hpk (Or.inr (Or.inl ⟨rfl, rfl⟩)) ?_
    cases hcan : env.crypto.canPss pk with
    | false =>
      simp only [hcan, Bool.not_false, if_true] at hr1
      cases hr1
      xp
      refine test_true rfl ?_
      rw [then_next, skip_pre (by rfl)]
      exact hq (mdFr k (v17 :: rest)) (sigO (.int 0) _ (zeros 4096) key md (zeros 64) ++ []) (sigEx_O hkey hpk.2)
    | true =>
      simp only [hcan, Bool.not_true] at hr1
      xp
      refine test_false rfl ?_
      rw [then_next, wp_pre]
      refine wp_orElse ?_
      xp
      refine wp_bitlen env fuel d (i := 3) (by rfl) hpk ?_
      xp
      by_cases hbl : env.crypto.bitlen pk < 2048
      · simp only [hbl, if_true, Bool.false_eq_true, if_false] at hr1
        cases hr1
        refine test_true (by rw [truth_ofBool]; simp; omega) ?_
        rw [then_next, skip_pre (by rfl)]
        exact hq (mdFr k (v17 :: rest)) (sigO (.int 0) _ (zeros 4096) key md (zeros 64) ++ []) (sigEx_O hkey hpk.2)
      simp only [hbl, Bool.false_eq_true, if_false] at hr1
      refine test_false (by rw [truth_ofBool]; simp; omega) ?_
      rw [then_next]
      refine wp_sigHash env fuel d hc (rest := v17 :: rest) rfl rfl (fun e => ?_) fun hash e hlen => ?_
      · rw [e] at hr1
        cases hr1
        rw [skip_pre (by rfl)]
        exact hq (mdFr k (v17 :: rest)) (sigO (.int 0) _ (zeros 4096) key md (zeros 64) ++ []) (sigEx_O hkey hpk.2)
      simp only [e] at hr1
      have hrsa : env.crypto.isRsa pk = true := by
        cases hi : env.crypto.isRsa pk with
        | true => rfl
        | false => rw [hi] at hr1; cases hr1
      simp only [hrsa, Bool.not_true, Bool.false_eq_true, if_false] at hr1
      unfold sigFr mdFr
      xp
      refine wp_pkRsa env fuel d (i := 3) (by rfl) hpk hrsa ?_
      xp
      refine wp_getStk env fuel d (i := 9) (by rfl) (asTy_mdCode _ md) ?_
      xp
      refine wp_setPadding env fuel d (i := 3) rfl hpk ?_
      have hpk3 := hpk.set3 (.int (mdCode md))
      xp
      refine wp_getStk env fuel d (i := 9) (by rfl) (asTy_mdCode _ md) ?_
      xp
      refine wp_getStk env fuel d (i := 8) (by rfl) (asTy_mdLen _ md) ?_
      xp
      have hh : (padTo 64 hash).take md.len = hash := by rw [padTo, ← hlen, List.take_left]
      rw [show wrap (cx env fuel d).cs .u32 (md.len : Nat) = (md.len : Nat) by cases md <;> rfl]
      refine wp_pssSign env fuel d (i := 3) (j := 5) (a := 6) (l' := zeros 4096) rfl hpk3 rfl rfl (pts_stk rfl)
        (by simp [padTo]; omega) rfl (fun e => ?_) fun x e => ?_
      · rw [hh] at e
        rw [e] at hr1
        cases hr1
        xp
        refine wp_failIf rfl (fun h => absurd h (by decide)) fun _ => ?_
        rw [then_next, skip_pre (by rfl)]
        exact hq (mdFr k (loc k 3 :: rest)) (sigO (.int 0) _ (zeros 4096) key md _ ++ []) (sigEx_O hkey hpk3.2)
      rw [hh] at e
      rw [e] at hr1
      obtain ⟨bf, e2, hr2⟩ := res_inv hr1
      obtain ⟨sg, e3, hr3⟩ := res_inv hr2
      cases hr3
      obtain ⟨hx1, rfl⟩ := wrAt_inv e2
      obtain ⟨hx2, rfl⟩ := rdN_inv e3
      rw [List.length_replicate] at hx1
      rw [List.length_append, List.length_drop, List.length_replicate] at hx2
      have hb8 : env.crypto.bitlen pk / 8 ≤ 4096 := by omega
      have hbi : ((env.crypto.bitlen pk : Nat) : Int) / 8 = ((env.crypto.bitlen pk / 8 : Nat) : Int) := by omega
      refine ⟨by rw [zeros_length]; exact hx1, ?_⟩
      xp
      refine wp_failIf rfl (fun _ => ?_) fun h => absurd rfl h
      xp
      refine wp_bitlen env fuel d (i := 3) (by rfl) hpk3 ?_
      xp
      rw [hbi]
      refine wp_putStk env fuel d (i := 2) (u := .int 0) rfl rfl ?_
      xp
      refine hq (.int 0) (mdFr k (loc k 3 :: rest))
        (sigO (.int (env.crypto.bitlen pk / 8 : Nat)) _ (poke (zeros 4096) 0 (cells x)) key md _ ++ [])
        ((x ++ List.drop x.length (List.replicate 4096 0)).drop (env.crypto.bitlen pk / 8)) (sigEx_O hkey hpk3.2) ?_ ?_ ?_
      · rw [List.length_take, List.length_append, List.length_drop, List.length_replicate, Nat.min_eq_left hx2]
        rfl
      · rw [zeros, poke_zero, List.take_append_drop]
        rfl
      · rw [List.length_take]
        omega

/-! ## ECDSA -/

theorem poke_two {c1 : Bytes} {n : Nat} (b : Bytes) (h : c1.length = n) (c2 : Bytes) :
    poke (poke (cells b) 0 (cells c1)) n (cells c2) = cells (c1 ++ c2 ++ b.drop (n + c2.length)) := by
  subst h
  rw [poke_zero]
  simp [poke, cells, List.map_append, List.drop_append, List.map_drop]

theorem wp_declStk {c : Ctx} {n i sz : Nat} {init : List Val} {fill : Val} {Q : Ctl → St → Prop} (hk : k.pre.length ≤ n) (hn : ex.length = n)
    (hq : Q (.next .run) ⟨fr.set i (loc k n), heap, stkMem m k (ex ++ [init ++ List.replicate (sz - init.length) fill]), k + (n + 1)⟩) :
    WP (exec c (.declMem i sz init fill) .run) s ⟨fr, heap, stkMem m k ex, k + n⟩ Q := by
  rw [wp_declMem]
  subst hn
  simp only [stk_decl hk, Lay.add_succ k hk]
  simp only [← k.blk_stack hk]
  exact hq

theorem skip_app {c : Ctx} {L1 L2 : List Stmt} {md : Mode} (h : L1.all (skips md) = true) (K : Stmt) (st : St) (Q : Ctl → St → Prop) :
    WP (exec c (pre (L1 ++ L2) K) md) s st Q = WP (exec c (pre L2 K) md) s st Q := by
  have : ∀ L : List Stmt, pre (L ++ L2) K = pre L (pre L2 K) := by
    intro L
    induction L with
    | nil => rfl
    | cons a L ih => rw [List.cons_append, pre_cons, pre_cons, ih]
  rw [this, skip_pre h]

/-- The slots 17 to 22 during ECDSA. -/
def ecFr (k : Lay) (v17 v21 : Val) (rest : List Val) : List Val := v17 :: loc k 12 :: loc k 13 :: loc k 14 :: v21 :: rest

/-- The local objects during ECDSA. -/
def ecO (bl : Val) (pk sgb : List Val) (key : Bytes) (md : Md) (hash : List Val) (ec : List Val) (a b : Val) : List (List Val) :=
  sigO bl pk sgb key md hash ++ [ec, [a], [b]]

/-- encode.c:511-522 -/
theorem wp_ecErr (env : Env) (fuel d : Nat) {K : Stmt} {kl : Nat} {key : Bytes} {md : Md} {rest pk sgb hash ec : List Val} {bl a b v17 v21 : Val}
    {Q : Ctl → St → Prop} {alg : Int} {rc : Nat} (hkey : key.length = 8192) (hpk : pk.length = 4) (hec : ec.length = 9) (hrc : rc ≠ 0)
    (hq : SigPost (cx env fuel d) K m k B P alg kl heap s Q (.error rc)) :
    WP (exec (cx env fuel d) (pre ecExit K) (.label "ecdsa_exit")) s
      ⟨sigFr B P k (.int rc) alg kl (mdFr k (ecFr k v17 v21 rest)), heap, stkMem m k (ecO bl pk sgb key md hash ec a b), k + 15⟩ Q := by
  unfold ecExit
  rw [wp_pre, wp_label, if_pos rfl, then_next]
  unfold sigFr mdFr ecFr
  xp
  refine wp_mpiFree env fuel d (i := 13) (by rfl) rfl ?_
  xp
  refine wp_mpiFree env fuel d (i := 14) (by rfl) rfl ?_
  xp
  refine wp_ecdsaFree env fuel d (i := 12) (by rfl) hec ?_
  xp
  rw [wp_if]
  xp
  exact hq (mdFr k (ecFr k v17 v21 rest)) (sigO bl pk sgb key md hash ++ [ecNone, [.int 0], [.int 0]]) (sigEx_O hkey hpk)

theorem wp_ecDone (env : Env) (fuel d : Nat) {K : Stmt} {kl : Nat} {key : Bytes} {md : Md} {rest pk hash ec : List Val} {a b v17 v21 : Val}
    {Q : Ctl → St → Prop} {alg : Int} {sig pad : Bytes} (hkey : key.length = 8192) (hpk : pk.length = 4) (hec : ec.length = 9)
    (hsig : sig.length ≤ 4096) (hq : SigPost (cx env fuel d) K m k B P alg kl heap s Q (.ok sig)) :
    WP (exec (cx env fuel d) (pre ecExit K) .run) s
      ⟨sigFr B P k (.int 0) alg kl (mdFr k (ecFr k v17 v21 rest)), heap,
        stkMem m k (ecO (.int sig.length) pk (cells (sig ++ pad)) key md hash ec a b), k + 15⟩ Q := by
  unfold ecExit
  rw [wp_pre, wp_label, if_neg (by simp), then_next]
  unfold sigFr mdFr ecFr
  xp
  refine wp_mpiFree env fuel d (i := 13) (by rfl) rfl ?_
  xp
  refine wp_mpiFree env fuel d (i := 14) (by rfl) rfl ?_
  xp
  refine wp_ecdsaFree env fuel d (i := 12) (by rfl) hec ?_
  xp
  rw [wp_if]
  xp
  exact hq (.int 0) (mdFr k (ecFr k v17 v21 rest))
    (sigO (.int sig.length) pk (cells (sig ++ pad)) key md hash ++ [ecNone, [.int 0], [.int 0]]) pad (sigEx_O hkey hpk) rfl rfl hsig

/-- One arm of the inner `switch`. -/
def ecArm (a cv len bits : Int) : List Stmt :=
  [.case a,
   orElse (.cmp .ne (.load (.int .i32) (.loc 18)) (.num cv)) 450 "ecdsa_exit",
   .exp (.store (.int .u64) (.loc 6) (.num len)),
   .exp (.set 2 (.cmp .eq (callE "mbedtls_pk_get_bitlen" [.loc 8]) (.num bits))),
   .brk]

theorem ecSw_eq : ecSw = ecArm 9 3 64 256 ++ (ecArm 12 12 64 256 ++ (ecArm 10 4 96 384 ++ (ecArm 11 5 132 521 ++ [.default]))) := rfl

theorem curve_i32 (cs : Bool) (c : Curve) : asTy cs (.int .i32) (.int (curveCode c)) = .ok (.int (curveCode c)) := by
  cases c with
  | other n =>
    have : curveCode (.other n) = 100 + (n % 1000 : Nat) := rfl
    exact asTy_i32 _ (by rw [this]; omega) (by rw [this]; omega)
  | _ => rfl

theorem curve_inj {a b : Curve} (hb : ∀ n, b ≠ .other n) : curveCode a = curveCode b ↔ a = b := by
  constructor
  · intro h
    cases b with
    | other n => exact absurd rfl (hb n)
    | _ =>
      cases a <;> first
        | rfl
        | (simp only [curveCode] at h; omega)
  · rintro rfl; rfl

theorem wp_ecArm (env : Env) (fuel d : Nat) {kl : Nat} {key : Bytes} {md : Md} {rest pkc sgb hash : List Val} {a b v17 v21 : Val} {r0 : Val}
    {Q : Ctl → St → Prop} {alg x : Int} {cv : Curve} {len bits : Nat} {L : List Stmt} {pk : env.crypto.PK} {body : Stmt}
    (hcv : ∀ n, cv ≠ .other n) (hpk : PkIs env.crypto pkc pk) (hL : L.all (skips (.label "ecdsa_exit")) = true)
    (h0 : env.crypto.grpId pk ≠ cv →
      Q (.next (.label "ecdsa_exit")) ⟨sigFr B P k (.int 450) alg kl (mdFr k (ecFr k v17 v21 rest)), heap,
        stkMem m k (ecO (.int 0) pkc sgb key md hash (ecCells (env.crypto.grpId pk) pkc) a b), k + 15⟩)
    (h1 : env.crypto.grpId pk = cv →
      Q (.next .run) ⟨sigFr B P k (.ofBool (decide ((env.crypto.bitlen pk : Int) = bits))) alg kl (mdFr k (ecFr k v17 v21 rest)), heap,
        stkMem m k (ecO (.int len) pkc sgb key md hash (ecCells (env.crypto.grpId pk) pkc) a b), k + 15⟩) :
    WP (exec (cx env fuel d) (pre (ecArm x (curveCode cv) len bits ++ L) .brk) (.case x)) s
      ⟨sigFr B P k r0 alg kl (mdFr k (ecFr k v17 v21 rest)), heap,
        stkMem m k (ecO (.int 0) pkc sgb key md hash (ecCells (env.crypto.grpId pk) pkc) a b), k + 15⟩ (Dflt (cx env fuel d) body s Q) := by
  simp only [ecArm, List.cons_append, List.nil_append]
  rw [wp_pre, case_hit, then_next, wp_pre]
  refine wp_orElse ?_
  unfold sigFr mdFr ecFr
  xp
  refine wp_getStk env fuel d (i := 12) (v := .int (curveCode (env.crypto.grpId pk))) (l := pkc ++ pkc) rfl (curve_i32 _ _) ?_
  xp
  by_cases hg : env.crypto.grpId pk = cv
  · refine test_false (by rw [truth_ofBool]; simpa using (curve_inj hcv).2 hg) ?_
    xp
    refine wp_putStk env fuel d (i := 2) (u := .int 0) rfl rfl ?_
    xp
    refine wp_bitlen env fuel d (i := 3) (by rfl) hpk ?_
    xp
    exact h1 hg
  · refine test_true (by rw [truth_ofBool]; simpa using fun h => hg ((curve_inj hcv).1 h)) ?_
    rw [then_next, skip_pre (by simpa [skips] using hL), skip_stmt (by rfl), dflt_label]
    exact h0 hg

/-- encode.c:424-476 -/
theorem wp_ecSwitch (env : Env) (fuel d : Nat) {kl : Nat} {key : Bytes} {md : Md} {rest pkc sgb hash : List Val} {a b v17 v21 : Val} {r0 : Val}
    {Q : Ctl → St → Prop} {alg : Int} {pk : env.crypto.PK} {cv : Curve} {len bits : Nat}
    (ha : alg = 9 ∨ alg = 10 ∨ alg = 11 ∨ alg = 12) (hpk : PkIs env.crypto pkc pk) (hreq : ecReq alg = some (cv, len, bits))
    (h0 : env.crypto.grpId pk ≠ cv →
      Q (.next (.label "ecdsa_exit")) ⟨sigFr B P k (.int 450) alg kl (mdFr k (ecFr k v17 v21 rest)), heap,
        stkMem m k (ecO (.int 0) pkc sgb key md hash (ecCells (env.crypto.grpId pk) pkc) a b), k + 15⟩)
    (h1 : env.crypto.grpId pk = cv →
      Q (.next .run) ⟨sigFr B P k (.ofBool (decide ((env.crypto.bitlen pk : Int) = bits))) alg kl (mdFr k (ecFr k v17 v21 rest)), heap,
        stkMem m k (ecO (.int len) pkc sgb key md hash (ecCells (env.crypto.grpId pk) pkc) a b), k + 15⟩) :
    WP (exec (cx env fuel d) (.switch (.loc 3) (pre ecSw .brk)) .run) s
      ⟨sigFr B P k r0 alg kl (mdFr k (ecFr k v17 v21 rest)), heap,
        stkMem m k (ecO (.int 0) pkc sgb key md hash (ecCells (env.crypto.grpId pk) pkc) a b), k + 15⟩ Q := by
  rw [wp_switch]
  have e0 : ∀ {R : Val → St → Prop} {st : St}, st = ⟨sigFr B P k r0 alg kl (mdFr k (ecFr k v17 v21 rest)), heap,
        stkMem m k (ecO (.int 0) pkc sgb key md hash (ecCells (env.crypto.grpId pk) pkc) a b), k + 15⟩ →
      WP (eval (cx env fuel d) (.loc 3)) s st R = R (.int alg) st := by
    intro R st hst
    subst hst
    unfold sigFr
    xi []
  rw [e0 rfl]
  refine ⟨alg, rfl, ?_⟩
  rcases ha with rfl | rfl | rfl | rfl
  · cases hreq
    rw [ecSw_eq]
    exact wp_ecArm env fuel d (cv := .secp256r1) (len := 64) (bits := 256) (by intro n h; cases h) hpk (by rfl) h0 h1
  · cases hreq
    rw [ecSw_eq, skip_app (by rfl), skip_app (by rfl)]
    exact wp_ecArm env fuel d (cv := .secp384r1) (len := 96) (bits := 384) (by intro n h; cases h) hpk (by rfl) h0 h1
  · cases hreq
    rw [ecSw_eq, skip_app (by rfl), skip_app (by rfl), skip_app (by rfl)]
    exact wp_ecArm env fuel d (cv := .secp521r1) (len := 132) (bits := 521) (by intro n h; cases h) hpk (by rfl) h0 h1
  · cases hreq
    rw [ecSw_eq, skip_app (by rfl)]
    exact wp_ecArm env fuel d (cv := .secp256k1) (len := 64) (bits := 256) (by intro n h; cases h) hpk (by rfl) h0 h1

/-- encode.c:477-522 -/
theorem wp_ecSign (env : Env) (fuel d : Nat) {K : Stmt} {kl : Nat} {key : Bytes} {md : Md} {rest pkc : List Val} {v17 v21 : Val}
    {Q : Ctl → St → Prop} {alg : Int} {pk : env.crypto.PK} {len bits : Nat} {hash : Bytes} {sr : SigRes} (hkey : key.length = 8192)
    (hpk : PkIs env.crypto pkc pk) (hlen : hash.length = md.len) (heven : len / 2 + len / 2 = len) (hmax : len ≤ 4096)
    (hr : (if env.crypto.bitlen pk ≠ bits then .ok (.error L8W8JWT_WRONG_KEY_TYPE)
          else match env.crypto.ecdsaSign pk hash with
            | none => .ok (.error L8W8JWT_SIGNATURE_CREATION_FAILURE)
            | some (r, s) =>
              match mpiWrite r (len / 2) with
              | none => .ok (.error L8W8JWT_SIGNATURE_CREATION_FAILURE)
              | some br =>
                match mpiWrite s (len / 2) with
                | none => .ok (.error L8W8JWT_SIGNATURE_CREATION_FAILURE)
                | some bs => .ok (.ok (br ++ bs)) : Res SigRes) = .ok sr)
    (hq : SigPost (cx env fuel d) K m k B P alg kl heap s Q sr) :
    WP (exec (cx env fuel d) (pre ecSign (pre ecExit K)) .run) s
      ⟨sigFr B P k (.ofBool (decide ((env.crypto.bitlen pk : Int) = bits))) alg kl (mdFr k (ecFr k v17 v21 rest)), heap,
        stkMem m k (ecO (.int len) pkc (zeros 4096) key md (cells (padTo 64 hash)) (ecCells (env.crypto.grpId pk) pkc) (.int 0) (.int 0)),
        k + 15⟩ Q := by
  have hl64 : md.len ≤ 64 := by cases md <;> decide
  have hec : (ecCells (env.crypto.grpId pk) pkc).length = 9 := by simp [ecCells, hpk.2]
  unfold ecSign
  rw [wp_pre]
  refine wp_orElse ?_
  by_cases hb : env.crypto.bitlen pk ≠ bits
  · rw [if_pos hb] at hr
    cases hr
    rw [show Val.ofBool (decide ((env.crypto.bitlen pk : Int) = bits)) = .int 0 by rw [decide_eq_false (by omega)]; rfl]
    unfold sigFr mdFr ecFr
    xp
    refine test_true rfl ?_
    rw [then_next, skip_pre (by rfl)]
    exact wp_ecErr env fuel d hkey hpk.2 hec (by decide) hq
  rw [if_neg hb] at hr
  rw [show Val.ofBool (decide ((env.crypto.bitlen pk : Int) = bits)) = .int 1 by rw [decide_eq_true (by omega)]; rfl]
  unfold sigFr mdFr ecFr
  xp
  refine test_false rfl ?_
  xp
  refine wp_addStk env fuel d (i := 12) (j := 1) rfl (by rw [hec]; decide) ?_
  xp
  refine wp_getStk env fuel d (i := 8) (by rfl) (asTy_mdLen _ md) ?_
  xp
  have hh : (padTo 64 hash).take md.len = hash := by rw [padTo, ← hlen, List.take_left]
  refine wp_ecdsaSign env fuel d (i := 12) (a := 13) (b := 14) (j := 5) (pk := pk) rfl hpk rfl rfl (by decide) rfl (pts_stk rfl)
    (by simp [padTo]; omega) (fun e => ?_) fun x y e => ?_
  · rw [hh] at e
    rw [e] at hr
    cases hr
    xp
    refine wp_failIf rfl (fun h => absurd h (by decide)) fun _ => ?_
    rw [then_next, skip_pre (by rfl)]
    exact wp_ecErr env fuel d hkey hpk.2 hec (by decide) hq
  rw [hh] at e
  simp only [e] at hr
  xp
  refine wp_failIf rfl (fun _ => ?_) fun h => absurd rfl h
  xp
  refine wp_getStk env fuel d (i := 2) (by rfl) (asTy_u64 _ (by omega)) ?_
  have e2 : ((len : Nat) : Int) / 2 = ((len / 2 : Nat) : Int) := by omega
  xp
  rw [e2]
  refine wp_mpiWrite env fuel d (i := 13) (a := 6) (o := 0) (n := len / 2) (x := x) (l := zeros 4096) rfl rfl (by rw [zeros_length]; omega)
    (fun e => ?_) fun br e => ?_
  · simp only [e] at hr
    cases hr
    xp
    refine wp_failIf rfl (fun h => absurd h (by decide)) fun _ => ?_
    rw [then_next, skip_pre (by rfl)]
    exact wp_ecErr env fuel d hkey hpk.2 hec (by decide) hq
  have hbr := mpiWrite_length e
  simp only [e] at hr
  xp
  refine wp_failIf rfl (fun _ => ?_) fun h => absurd rfl h
  xp
  have hpl : (poke (zeros 4096) 0 (cells br)).length = 4096 := by
    rw [poke_length (by rw [cells_length, zeros_length]; omega), zeros_length]
  refine wp_addStk env fuel d (i := 6) (j := len / 2) rfl (by rw [hpl]; omega) ?_
  xp
  refine wp_mpiWrite env fuel d (i := 14) (a := 6) (o := len / 2) (n := len / 2) (x := y) (l := poke (zeros 4096) 0 (cells br)) rfl rfl
    (by rw [hpl]; omega) (fun e => ?_) fun bs e => ?_
  · simp only [e] at hr
    cases hr
    xp
    refine wp_failIf rfl (fun h => absurd h (by decide)) fun _ => ?_
    rw [then_next, skip_pre (by rfl)]
    exact wp_ecErr env fuel d hkey hpk.2 hec (by decide) hq
  have hbs := mpiWrite_length e
  simp only [e] at hr
  cases hr
  xp
  refine wp_failIf rfl (fun _ => ?_) fun h => absurd rfl h
  xp
  have hsl : (br ++ bs).length = len := by rw [List.length_append]; omega
  have := wp_ecDone env fuel d (K := K) (kl := kl) (key := key) (md := md) (rest := rest) (pk := pkc) (hash := cells (padTo 64 hash))
    (ec := ecCells (env.crypto.grpId pk) pkc) (a := .int x) (b := .int y) (v17 := v17) (v21 := .int (len / 2 : Nat))
    (pad := (List.replicate 4096 0).drop len) hkey hpk.2 hec (by omega) hq
  rw [hsl] at this
  have e3 : poke (poke (zeros 4096) 0 (cells br)) (len / 2) (cells bs) = cells ((br ++ bs) ++ (List.replicate 4096 0).drop len) := by
    rw [zeros, poke_two _ hbr, hbs, heven]
  rw [← e3] at this
  exact this
theorem wp_set2 {c : Ctx} (n : Int) (st : St) (Q : Ctl → St → Prop) :
    WP (exec c (.exp (.set 2 (.num n))) .run) s st Q = Q (.next .run) { st with fr := st.fr.set 2 (.int n) } := by
  xi []

/-- encode.c:384-522 -/
theorem wp_signEcdsa (env : Env) (fuel d : Nat) (hc : SigCtx m k B P bid sb p w base) {K : Stmt} {kl : Nat} {key : Bytes} {md : Md}
    {pw : Option Bytes} {rest : List Val} {Q : Ctl → St → Prop} {sr : SigRes} {r0 v17 v18 v19 v20 v21 : Val} (hkey : key.length = 8192)
    (ha : p.alg = 9 ∨ p.alg = 10 ∨ p.alg = 11 ∨ p.alg = 12) (hpw : pwArg p.secretKeyPw p.secretKeyPwLength = .ok pw)
    (hr : signEcdsa env.crypto p.alg md key kl pw sb = .ok sr) (hq : SigPost (cx env fuel d) K m k B P p.alg kl heap s Q sr) :
    WP (exec (cx env fuel d) (signSwE K) (.case p.alg)) s
      ⟨sigFr B P k r0 p.alg kl (mdFr k (v17 :: v18 :: v19 :: v20 :: v21 :: rest)), heap, stkMem m k (sigObj key md), k + 12⟩ Q := by
  obtain ⟨x, e1, hr1⟩ := res_inv hr
  obtain ⟨hx, rfl⟩ := rdN_inv e1
  unfold signSwE
  rw [show ecDecl = [9, 10, 11, 12].map Stmt.case ++ ecDecl.drop 4 from rfl, pre_hit _ _ (by simpa using ha)]
  simp only [ecDecl, List.drop]
  unfold sigFr mdFr
  rw [wp_pre]
  refine wp_declStk (by have := hc.lay; simp; omega) rfl ?_
  xp
  refine wp_ecdsaInit env fuel d (i := 12) (l := List.replicate 9 .undef) (by rfl) rfl ?_
  rw [then_next, wp_pre]
  refine wp_declStk (n := 13) (by have := hc.lay; simp; omega) rfl ?_
  rw [then_next, wp_pre]
  refine wp_declStk (n := 14) (by have := hc.lay; simp; omega) rfl ?_
  xp
  refine wp_mpiInit env fuel d (i := 13) (l := [.undef]) (by rfl) rfl ?_
  xp
  refine wp_mpiInit env fuel d (i := 14) (l := [.undef]) (by rfl) rfl ?_
  rw [then_next, wp_pre0]
  show WP _ s ⟨sigFr B P k r0 p.alg kl (mdFr k (ecFr k v17 v21 rest)), heap,
    stkMem m k (ecO (.int 0) pkNone (zeros 4096) key md (zeros 64) ecNone (.int 0) (.int 0)), k + 15⟩ Q
  unfold ecKey
  refine wp_sigKey env fuel d hc rfl rfl rfl hx hpw (fun e => ?_) fun pk e => ?_
  · rw [e] at hr1
    cases hr1
    rw [skip_pre (by rfl), wp_seq, skip_stmt (by rfl), then_next, skip_pre (by rfl)]
    exact wp_ecErr env fuel d hkey rfl rfl (by decide) hq
  simp only [e] at hr1
  have hpk : PkIs env.crypto (pkCells 1 (key.take kl) pw) pk := pkIs_key e
  rw [wp_pre]
  refine wp_orElse ?_
  unfold sigFr mdFr ecFr
  xp
  refine wp_canDo env fuel d (i := 3) (by rfl) hpk (Or.inr (Or.inr ⟨rfl, rfl⟩)) ?_
  cases hcan : env.crypto.canEcdsa pk with
  | false =>
    simp only [hcan, Bool.not_false, if_true] at hr1
    cases hr1
    xp
    refine test_true rfl ?_
    rw [then_next, skip_pre (by rfl), wp_seq, skip_stmt (by rfl), then_next, skip_pre (by rfl)]
    exact wp_ecErr env fuel d hkey hpk.2 rfl (by decide) hq
  | true =>
    simp only [hcan, Bool.not_true, Bool.false_eq_true, if_false] at hr1
    have hec : env.crypto.isEc pk = true := by
      cases hi : env.crypto.isEc pk with
      | true => rfl
      | false => rw [hi] at hr1; cases hr1
    simp only [hec, Bool.not_true, Bool.false_eq_true, if_false] at hr1
    xp
    refine test_false rfl ?_
    xp
    refine wp_pkEc env fuel d (i := 3) (by rfl) hpk hec ?_
    xp
    refine wp_fromKeypair env fuel d (i := 12) (j := 3) (by rfl) (by rfl) hpk (fun e => ?_) fun e => ?_
    · simp only [e, Bool.not_false, if_true] at hr1
      cases hr1
      xp
      refine wp_failIf rfl (fun h => absurd h (by decide)) fun _ => ?_
      rw [then_next, skip_pre (by rfl), wp_seq, skip_stmt (by rfl), then_next, skip_pre (by rfl)]
      exact wp_ecErr env fuel d hkey hpk.2 rfl (by decide) hq
    have hecl : (ecCells (env.crypto.grpId pk) (pkCells 1 (key.take kl) pw)).length = 9 := by simp [ecCells, hpk.2]
    simp only [e, Bool.not_true, Bool.false_eq_true, if_false] at hr1
    xp
    refine wp_failIf rfl (fun _ => ?_) fun h => absurd rfl h
    rw [then_next]
    refine wp_sigHash env fuel d hc (rest := ecFr k v17 v21 rest) rfl rfl (fun e => ?_) fun hash e hlen => ?_
    · simp only [e] at hr1
      cases hr1
      rw [skip_pre (by rfl), wp_seq, skip_stmt (by rfl), then_next, skip_pre (by rfl)]
      exact wp_ecErr env fuel d hkey hpk.2 hecl (by decide) hq
    simp only [e] at hr1
    rw [wp_pre, wp_set2, then_next, wp_pre0, wp_seq]
    cases hreq : ecReq p.alg with
    | none => exact absurd hreq (by rcases ha with h | h | h | h <;> rw [h] <;> decide)
    | some q =>
      obtain ⟨cv, len, bits⟩ := q
      simp only [hreq] at hr1
      refine wp_ecSwitch env fuel d (pk := pk) ha hpk hreq (fun hg => ?_) fun hg => ?_
      · rw [if_pos hg] at hr1
        cases hr1
        rw [then_next, skip_pre (by rfl)]
        exact wp_ecErr env fuel d hkey hpk.2 hecl (by decide) hq
      · rw [if_neg (fun h => h hg)] at hr1
        rw [then_next]
        have hlen2 : len / 2 + len / 2 = len ∧ len ≤ 4096 := by
          rcases ha with h | h | h | h <;> (rw [h] at hreq; cases hreq; decide)
        exact wp_ecSign env fuel d hkey hpk hlen hlen2.1 hlen2.2 hr1 hq

/-! ## Ed25519 -/

/-- encode.c:525 -/
def edCond : Expr :=
  .land (.cmp .ne (.load (.int .u64) (memE 17)) (.num 128))
    (.not (.land (.cmp .eq (.load (.int .u64) (memE 17)) (.num 129))
      (.cmp .eq (.load (.int .u8) (.padd 1 (.load .ptr (memE 16)) (.num 128))) (.num 0))))

theorem wp_edCond (env : Env) (fuel d : Nat) (hc : SigCtx m k B P bid sb p w base) {fr : List Val} {key : Bytes} {good : Bool} {R : Val → St → Prop}
    (hk : p.secretKey = some key) (hfr : fr.getD 1 .undef = .ptr (some (P, 0)))
    (hg : (if p.secretKeyLength = 128 then .ok true
      else if p.secretKeyLength = 129 then do let b ← rd key 128; .ok (b = 0 : Bool)
      else .ok false : Res Bool) = .ok good) (hq : R (.ofBool (!good)) ⟨fr, heap, stkMem m k ex, stk⟩) :
    WP (eval (cx env fuel d) edCond) s ⟨fr, heap, stkMem m k ex, stk⟩ R := by
  have hkey := (hc.encAt (ex := ex)).key
  rw [hk] at hkey
  have hnul := nul_some hkey
  rw [hnul] at hkey
  obtain ⟨b, o, l, hw, hcont, ho, hby⟩ := hkey
  unfold edCond
  xp
  rw [hfr]
  by_cases h128 : p.secretKeyLength = 128
  · rw [if_pos h128] at hg
    cases hg
    refine hc.wpPar env fuel d (v' := .int 128) (i := 17) (by decide) rfl (by rw [h128]; exact asTy_u64 _ (by decide)) ?_
    xp
    exact hq
  rw [if_neg h128] at hg
  refine hc.wpPar env fuel d (i := 17) (by decide) rfl (asTy_u64 _ hc.enc.keyLength) ?_
  xp
  rw [hfr]
  by_cases h129 : p.secretKeyLength = 129
  · rw [if_pos h129] at hg
    obtain ⟨x, hx, hg1⟩ := res_inv hg
    cases hg1
    refine hc.wpPar env fuel d (v' := .int 129) (i := 17) (by decide) rfl (by rw [h129]; exact asTy_u64 _ (by decide)) ?_
    xp
    rw [hfr]
    refine hc.wpPar env fuel d (i := 16) (v' := .ptr (some (b, (o : Int)))) (by decide) rfl (by rw [hw]; rfl) ?_
    have hx' : (bytesFrom l o)[128]? = some x := by
      rw [hby]
      unfold rd at hx
      split at hx
      · cases hx; assumption
      · cases hx
    have hl := (List.getElem?_eq_some_iff.1 (bytesFrom_get hx')).1
    xp
    refine wp_paddV (c := cx env fuel d) (by exact hcont) (by omega) (by omega) ?_
    refine wp_load_u8 (c := cx env fuel d) (by exact hcont) hx' (by omega) ?_
    xp
    have e0 : decide ((x.toNat : Int) = 0) = decide (x = 0) := by
      rcases Decidable.em (x = 0) with h | h
      · subst h; rfl
      · rw [decide_eq_false h, decide_eq_false]
        intro h'
        apply h
        apply UInt8.toNat_inj.1
        simpa using h'
    rw [e0]
    revert hq
    cases decide (x = 0) <;> intro hq <;> xp <;> exact hq
  · rw [if_neg h129] at hg
    cases hg
    refine hc.wpPar env fuel d (i := 17) (by decide) rfl (asTy_u64 _ hc.enc.keyLength) ?_
    xp
    exact hq

/-- The cells of the objects 8 to 10 matter only when a hash function is used. -/
def edO (bl : Val) (sgb : List Val) (key : Bytes) (a b c : Val) : List (List Val) :=
  [[.ptr none], [.int 0], [bl], pkNone, [.int 0], [.int 1], sgb, cells key, [a], [b], [c], zeros 64]

theorem sigEx_ed {bl : Val} {sgb : List Val} {key : Bytes} {a b c : Val} {l : List (List Val)} (h : key.length = 8192) :
    SigEx (edO bl sgb key a b c ++ l) :=
  ⟨rfl, rfl, ⟨_, rfl⟩, ⟨_, rfl, rfl⟩, ⟨_, rfl⟩, ⟨_, rfl⟩, ⟨_, rfl, by rw [cells_length, h]⟩⟩

theorem deref_inv {α : Type} {o : Option α} {x : α} (h : deref o = .ok x) : o = some x := by
  cases o <;> cases h
  rfl

theorem hexstr2bin_space {cs : Bool} {mem : Bytes} {n sp osz : Nat} {ln : Bool} {o : HexOut}
    (h : hexstr2bin cs (some mem) n (some sp) osz ln = .ok o) : o.written.length ≤ sp := by
  unfold hexstr2bin at h
  by_cases h0 : n = 0
  · simp only [h0, if_true] at h
    cases h; exact Nat.zero_le _
  · simp only [h0, if_false] at h
    obtain ⟨x, -, h1⟩ := res_inv h
    generalize (if x ≠ 0 then n else n - 1) = hl at h1
    by_cases h2 : hl % 2 ≠ 0
    · rw [if_pos h2] at h1
      cases h1; exact Nat.zero_le _
    · rw [if_neg h2] at h1
      by_cases h3 : osz < hl / 2 + 1
      · rw [if_pos h3] at h1
        cases h1; exact Nat.zero_le _
      · rw [if_neg h3] at h1
        obtain ⟨y, -, h4⟩ := res_inv h1
        split at h4
        · cases h4
        · rename_i hs
          cases h4
          exact Nat.not_lt.1 hs

theorem take_padTo {n a b : Nat} (x : Bytes) (ha : n ≤ a) (hb : n ≤ b) : (padTo a x).take n = (padTo b x).take n := by
  simp only [padTo]
  rw [List.take_append, List.take_append]
  congr 1
  simp only [List.take_replicate]
  congr 1
  omega

theorem wr_stk {i : Nat} {l : List Val} (h : ex[i]? = some l) (vs : List Val) :
    wr (stkMem m k ex) (loc k i) vs = stkMem m k (ex.set i (poke l 0 vs)) := by
  have hi : i < ex.length := by
    rcases Nat.lt_or_ge i ex.length with hl | hl
    · exact hl
    · rw [List.getElem?_eq_none hl] at h; cases h
  simp only [wr, stk_get, h, Option.map_some, Int.toNat_zero]
  rw [stk_set hi]

/-- encode.c:523-549 -/
theorem wp_signEd (env : Env) (fuel d : Nat) (hc : SigCtx m k B P bid sb p w base) (hwf : NewHeap m k heap)
    {K : Stmt} {kl : Nat} {key : Bytes} {a b c : Val}
    {rest : List Val} {Q : Ctl → St → Prop} {sr : SigRes} {r0 v17 v18 v19 v20 v21 v22 : Val} (hkey : key.length = 8192)
    (ha : p.alg = 13) (hed : env.eddsa = true) (hf : p.secretKeyLength < fuel)
    (hr : signEd env p.secretKey p.secretKeyLength sb = .ok sr) (hq : SigPost (cx env fuel (d + 1)) K m k B P p.alg kl heap s Q sr) :
    WP (exec (cx env fuel (d + 1)) (pre edL K) (.case p.alg)) s
      ⟨sigFr B P k r0 p.alg kl (mdFr k (v17 :: v18 :: v19 :: v20 :: v21 :: v22 :: rest)), heap,
        stkMem m k (edO (.int 0) (zeros 4096) key a b c), k + 12⟩ Q := by
  unfold signEd at hr
  rw [hed] at hr
  simp only [Bool.not_true, Bool.false_eq_true, if_false] at hr
  obtain ⟨mem, e1, hr1⟩ := res_inv hr
  have hk := deref_inv e1
  obtain ⟨good, e2, hr2⟩ := res_inv hr1
  rw [show edL = [13].map Stmt.case ++ edL.drop 1 from rfl, pre_hit _ _ (by simpa using ha)]
  simp only [edL, List.drop]
  rw [wp_pre]
  refine wp_orElse ?_
  refine wp_edCond env fuel (d + 1) hc hk rfl e2 ?_
  cases good with
  | false =>
    cases hr2
    refine test_true rfl ?_
    rw [then_next, skip_pre (by rfl)]
    exact hq (mdFr k _) (edO (.int 0) (zeros 4096) key a b c ++ []) (sigEx_ed hkey)
  | true =>
    simp only [Bool.not_true, Bool.false_eq_true, if_false] at hr2
    obtain ⟨h, e3, hr3⟩ := res_inv hr2
    refine test_false rfl ?_
    rw [then_next, wp_pre]
    refine wp_declStk (by have := hc.lay; simp; omega) rfl ?_
    rw [then_next, wp_pre]
    refine wp_orElse ?_
    unfold sigFr mdFr
    have hkm := fun ex => (hc.encAt (ex := ex)).key
    rw [hk] at hkm
    have hnul := nul_some (hkm [])
    rw [hnul] at hkm
    have hasT : asTy env.charSigned .ptr w.key = .ok w.key := by
      obtain ⟨b, o, l, hw, -⟩ := hkm []
      rw [hw]; rfl
    xp
    refine hc.wpPar env fuel (d + 1) (i := 16) (by decide) rfl hasT ?_
    xp
    refine hc.wpPar env fuel (d + 1) (i := 17) (by decide) rfl (asTy_u64 _ hc.enc.keyLength) ?_
    xp
    rw [cx_fun _ _ _ (fn := l8w8jwt_hexstr2bin) rfl]
    have hw13 : ∀ fr, Wf (⟨fr, heap, stkMem m k (edO (.int 0) (zeros 4096) key a b c ++ [zeros 65]), k + 13⟩ : St) := fun fr =>
      ⟨fun j hj => stk_top (by have := hc.lay; simp [edO]; omega) j hj, fun i hi => (stk_old (hwf i hi).2).trans (hwf i hi).1⟩
    have hsep : Sep w.key (loc k 12) := by
      have hkb := hc.enc.key
      rw [hk, hnul] at hkb
      obtain ⟨b', o, l, hw, hcont, -⟩ := hkb
      rw [hw]
      refine Or.inr (Or.inr ?_)
      simp only [Val.blk, ne_eq, Option.some.injEq]
      rintro rfl
      rw [cont_own (k.blk_own _), hc.stk] at hcont
      cases hcont
    have hroom : Room (stkMem m k (edO (.int 0) (zeros 4096) key a b c ++ [zeros 65])) (loc k 12) (some 65) :=
      ⟨k.blk 12, 0, zeros 65, rfl, k.blk_own _, (stk_get 12).trans rfl, by rw [zeros_length]⟩
    have hrun := hexstr2bin_text env fuel d s _ (hw13 (sigFr B P k r0 p.alg kl (mdFr k (v17 :: v18 :: v19 :: v20 :: v21 :: loc k 12 :: rest))))
      w.key (loc k 12) (.ptr none) (some mem) p.secretKeyLength (some 65) 65 true (hkm _) hroom rfl hsep (Or.inr (Or.inl rfl))
      hc.enc.keyLength h e3 hf
    have hsp := hexstr2bin_space e3
    refine (Eq.mpr (wp_of_eq hrun) ?_ : WP _ s _ _)
    simp only [wr_stk (ex := edO (.int 0) (zeros 4096) key a b c ++ [zeros 65]) (i := 12) rfl]
    unfold sigFr mdFr
    by_cases hrc : h.rc ≠ 0
    · rw [if_pos hrc] at hr3
      cases hr3
      xp
      refine test_true (by rw [truth_ofBool]; simp; omega) ?_
      rw [then_next, skip_pre (by rfl)]
      exact hq (mdFr k _) (edO (.int 0) (zeros 4096) key a b c ++ [_]) (sigEx_ed hkey)
    · rw [if_neg hrc] at hr3
      cases hr3
      xp
      refine test_false (by rw [truth_ofBool]; simp; omega) ?_
      xp
      refine hc.wpBuf env fuel (d + 1) ?_
      xp
      refine hc.wpLen env fuel (d + 1) ?_
      xp
      have hpad : poke (zeros 65) 0 (cells h.written) = cells (padTo 65 h.written) := by
        rw [zeros, poke_zero, padTo, List.drop_replicate]
      simp only [hpad]
      obtain ⟨l, hmsg⟩ := hc.msg (ex := (edO (.int 0) (zeros 4096) key a b c ++ [zeros 65]).set 12 (cells (padTo 65 h.written)))
      refine wp_edSign env fuel (d + 1) (a := 6) hmsg (by simp) (pts_stk (b := padTo 65 h.written) rfl) (by simp [padTo]; omega)
        (l := zeros 4096) rfl (by rw [zeros_length]; decide) ?_
      rw [List.take_left]
      xp
      refine wp_putStk env fuel (d + 1) (i := 2) (u := .int 0) rfl rfl ?_
      xp
      refine wp_zero env fuel (d + 1) (i := 12) (n := 65) (l := cells (padTo 65 h.written)) rfl (by rw [cells_length]; simp [padTo]; omega)
        (by decide) ?_
      xp
      rw [take_padTo (a := 4096) (b := 64) _ (by decide) (by decide)] at hq
      generalize env.crypto.edSign sb (padTo 65 h.written) = E at hq ⊢
      have h64 : ((padTo 64 E).take 64).length = 64 := by simp [padTo]; omega
      refine hq r0 (mdFr k _) (edO (.int 64) _ key a b c ++ [_]) ((List.replicate 4096 0).drop 64) (sigEx_ed hkey) (by rw [h64]; rfl) ?_
        (by rw [h64]; decide)
      have e4 : poke (zeros 4096) 0 (cells ((padTo 64 E).take 64)) = cells ((padTo 64 E).take 64 ++ (List.replicate 4096 0).drop 64) := by
        rw [zeros, poke_zero, h64]
      exact congrArg some e4

/-! ## The whole `switch` -/

theorem skips_hmac {j : Int} (h : ¬ (j = 0 ∨ j = 1 ∨ j = 2)) : hmacL.all (skips (.case j)) = true := by
  have h0 : (0 : Int) ≠ j := by omega
  have h1 : (1 : Int) ≠ j := by omega
  have h2 : (2 : Int) ≠ j := by omega
  simp [hmacL, skips, failIf, orElse, h0, h1, h2]

theorem skips_rsa {j : Int} (h : ¬ (j = 3 ∨ j = 4 ∨ j = 5)) : rsaL.all (skips (.case j)) = true := by
  have h0 : (3 : Int) ≠ j := by omega
  have h1 : (4 : Int) ≠ j := by omega
  have h2 : (5 : Int) ≠ j := by omega
  simp [rsaL, skips, failIf, orElse, h0, h1, h2]

theorem skips_pss {j : Int} (h : ¬ (j = 6 ∨ j = 7 ∨ j = 8)) : pssL.all (skips (.case j)) = true := by
  have h0 : (6 : Int) ≠ j := by omega
  have h1 : (7 : Int) ≠ j := by omega
  have h2 : (8 : Int) ≠ j := by omega
  simp [pssL, skips, failIf, orElse, h0, h1, h2]

theorem skips_ec {j : Int} (h : ¬ (j = 9 ∨ j = 10 ∨ j = 11 ∨ j = 12)) : ecDecl.all (skips (.case j)) = true := by
  have h0 : (9 : Int) ≠ j := by omega
  have h1 : (10 : Int) ≠ j := by omega
  have h2 : (11 : Int) ≠ j := by omega
  have h3 : (12 : Int) ≠ j := by omega
  simp [ecDecl, skips, h0, h1, h2, h3]

theorem skips_ed {j : Int} (ed : Bool) (h : ¬ j = 13) : (edLs ed).all (skips (.case j)) = true := by
  have h0 : (13 : Int) ≠ j := by omega
  cases ed
  · simp [edLs, edOffL, skips, h0]
  · simp [edLs, edL, skips, orElse, h0]

/-- encode.c:523-549, in a build without EdDSA. -/
theorem wp_signEdOff (env : Env) (fuel d : Nat) {K : Stmt} {kl : Nat} {key : Bytes} {a b c : Val} {rest : List Val} {Q : Ctl → St → Prop} {sr : SigRes}
    {r0 : Val} (hkey : key.length = 8192) (ha : p.alg = 13) (hed : env.eddsa = false) (hr : signEd env p.secretKey p.secretKeyLength sb = .ok sr)
    (hq : SigPost (cx env fuel (d + 1)) K m k B P p.alg kl heap s Q sr) :
    WP (exec (cx env fuel (d + 1)) (pre edOffL K) (.case p.alg)) s
      ⟨sigFr B P k r0 p.alg kl rest, heap, stkMem m k (edO (.int 0) (zeros 4096) key a b c), k + 12⟩ Q := by
  unfold signEd at hr
  rw [hed] at hr
  simp only [Bool.not_false, if_true] at hr
  cases hr
  rw [show edOffL = [13].map Stmt.case ++ edOffL.drop 1 from rfl, pre_hit _ _ (by simpa using ha)]
  simp only [edOffL, List.drop]
  unfold sigFr
  xp
  exact hq rest (edO (.int 0) (zeros 4096) key a b c ++ []) (sigEx_ed hkey)

/-- encode.c:259-554 -/
theorem wp_sigSwitch (env : Env) (fuel d : Nat) (hc : SigCtx m k B P bid sb p w base) (hwf : NewHeap m k heap)
    {kl : Nat} {key : Bytes} {a b c : Val} {Q : Ctl → St → Prop} {sr : SigRes} {r0 v17 v18 v19 v20 v21 : Val} {ev : List Val} (hkey : key.length = 8192)
    (hkl : 1 ≤ kl) (hkl' : kl < 18446744073709551616) (hed : env.eddsa = true → ∃ v, ev = [v]) (hf : p.secretKeyLength < fuel)
    (hmd : ∀ md, encMd p.alg = some md → a = .int md.len ∧ b = .int (mdCode md) ∧ c = mdInfo (some md))
    (hseed : env.crypto.seedOk = true) (hr : signSwitch env p key kl sb = .ok sr)
    (he : ∀ rc, sr = .error rc → ∀ rest ex, SigEx ex →
      WP (exec (cx env fuel (d + 1)) (sigEnd env.smallStack) (.label "exit")) s ⟨sigFr B P k (.int rc) p.alg kl rest, heap, stkMem m k ex, k + ex.length⟩ Q)
    (ho : ∀ sig, sr = .ok sig → ∀ r rest ex pad, SigEx ex → ex[2]? = some [.int sig.length] → ex[6]? = some (cells (sig ++ pad)) →
      sig.length ≤ 4096 →
      WP (exec (cx env fuel (d + 1)) (sigEnd env.smallStack) .run) s ⟨sigFr B P k r p.alg kl rest, heap, stkMem m k ex, k + ex.length⟩ Q) :
    WP (exec (cx env fuel (d + 1)) (.seq (.switch (.loc 3) (signSw env.eddsa)) (sigEnd env.smallStack)) .run) s
      ⟨sigFr B P k r0 p.alg kl (mdFr k (v17 :: v18 :: v19 :: v20 :: v21 :: ev)), heap, stkMem m k (edO (.int 0) (zeros 4096) key a b c), k + 12⟩ Q := by
  rw [wp_seq, wp_switch]
  have e0 : ∀ {R : Val → St → Prop} {st : St},
      st = ⟨sigFr B P k r0 p.alg kl (mdFr k (v17 :: v18 :: v19 :: v20 :: v21 :: ev)), heap, stkMem m k (edO (.int 0) (zeros 4096) key a b c), k + 12⟩ →
      WP (eval (cx env fuel (d + 1)) (.loc 3)) s st R = R (.int p.alg) st := by
    intro R st hst
    subst hst
    unfold sigFr
    xi []
  rw [e0 rfl]
  refine ⟨p.alg, rfl, ?_⟩
  show WP (exec (cx env fuel (d + 1)) (signSw env.eddsa) (.case p.alg)) s _ (Dflt (cx env fuel (d + 1)) (signSw env.eddsa) s (Then (cx env fuel (d + 1)) (sigEnd env.smallStack) s Q))
  have hpost : ∀ K, skips (.label "exit") K = true →
      SigPost (cx env fuel (d + 1)) K m k B P p.alg kl heap s (Dflt (cx env fuel (d + 1)) (signSw env.eddsa) s (Then (cx env fuel (d + 1)) (sigEnd env.smallStack) s Q)) sr := by
    intro K hK
    cases sr with
    | error rc =>
      intro rest ex hex
      rw [skip_stmt hK, dflt_label, then_next]
      exact he rc rfl rest ex hex
    | ok sig =>
      intro r rest ex pad h1 h2 h3 h4
      rw [dflt_brk, then_next]
      exact ho sig rfl r rest ex pad h1 h2 h3 h4
  unfold signSwitch at hr
  simp only [hseed, Bool.not_true, Bool.false_eq_true, if_false] at hr
  have hobj : ∀ md, encMd p.alg = some md → edO (.int 0) (zeros 4096) key a b c = sigObj key md := by
    intro md h
    obtain ⟨rfl, rfl, rfl⟩ := hmd md h
    rfl
  have hsw : signSw env.eddsa = pre hmacL (pre rsaL (pre pssL (signSwE (pre (edLs env.eddsa) (pre dfltL (.goto "exit")))))) := rfl
  split at hr
  · rename_i ha
    obtain ⟨md, e1, hr1⟩ := res_inv hr
    have e2 := deref_inv e1
    rw [hobj md e2]
    exact wp_signHmac env fuel (d + 1) hc hkey e2 ha hkl hkl' hr1 (hpost _ (by generalize env.eddsa = ed; cases ed <;> rfl))
  rename_i n1
  generalize hD : Dflt (cx env fuel (d + 1)) (signSw env.eddsa) s (Then (cx env fuel (d + 1)) (sigEnd env.smallStack) s Q) = D at hpost ⊢
  rw [hsw, skip_pre (skips_hmac n1)]
  split at hr
  · rename_i ha
    obtain ⟨md, e1, hr1⟩ := res_inv hr
    obtain ⟨pw, e3, hr2⟩ := res_inv hr1
    rw [hobj md (deref_inv e1)]
    exact wp_signRsa env fuel (d + 1) hc hkey ha e3 hr2 (hpost _ (by generalize env.eddsa = ed; cases ed <;> rfl))
  rename_i n2
  rw [skip_pre (skips_rsa n2)]
  split at hr
  · rename_i ha
    obtain ⟨md, e1, hr1⟩ := res_inv hr
    obtain ⟨pw, e3, hr2⟩ := res_inv hr1
    rw [hobj md (deref_inv e1)]
    exact wp_signPss env fuel (d + 1) hc hkey ha e3 hr2 (hpost _ (by generalize env.eddsa = ed; cases ed <;> rfl))
  rename_i n3
  rw [skip_pre (skips_pss n3)]
  split at hr
  · rename_i ha
    obtain ⟨md, e1, hr1⟩ := res_inv hr
    obtain ⟨pw, e3, hr2⟩ := res_inv hr1
    rw [hobj md (deref_inv e1)]
    exact wp_signEcdsa env fuel (d + 1) hc hkey ha e3 hr2 (hpost _ (by generalize env.eddsa = ed; cases ed <;> rfl))
  rename_i n4
  unfold signSwE
  rw [skip_pre (skips_ec n4), skip_pre (by rfl), wp_seq, skip_stmt (by rfl), then_next, skip_pre (by rfl), skip_pre (by rfl)]
  split at hr
  · rename_i ha
    cases hx : env.eddsa with
    | true =>
      obtain ⟨v22, rfl⟩ := hed hx
      exact wp_signEd env fuel d hc hwf hkey ha hx hf hr (hpost _ (by rfl))
    | false => exact wp_signEdOff env fuel d hkey ha hx hr (hpost _ (by rfl))
  · rename_i n5
    cases hr
    rw [skip_pre (skips_ed _ n5), skip_pre (by rfl), skip_stmt (by rfl), ← hD, dflt_case, hsw]
    unfold signSwE
    rw [skip_pre (by rfl), skip_pre (by rfl), skip_pre (by rfl), skip_pre (by rfl), skip_pre (by rfl), wp_seq, skip_stmt (by rfl), then_next,
      skip_pre (by rfl), skip_pre (by rfl), skip_pre (by generalize env.eddsa = ed; cases ed <;> rfl)]
    simp only [dfltL]
    unfold sigFr
    xp
    exact he _ rfl (mdFr k (v17 :: v18 :: v19 :: v20 :: v21 :: ev)) (edO (.int 0) (zeros 4096) key a b c ++ []) (sigEx_ed hkey)

end

end L8w8jwt.C
