import Verif.C.HeaderInv
/-!
# Rules for the parts of write_header_and_payload
-/

namespace L8w8jwt.C
open L8w8jwt L8w8jwt.C.Src

section
variable {m0 : Blk → Option (List Val)} {k t0 : Nat} {B : Blk} {bid : Nat} {sg : Option (Nat × List Val)} {sb buf : Bytes}
  {ex : List (List Val)} {heap : Heap} {mem : Blk → Option (List Val)} {fr : List Val} {stk : Nat} {s : Sched}

theorem HP.wpPush (env : Env) (fuel d : Nat) (h : HP m0 k t0 B bid sg sb buf ex heap mem) {q : Val} {m buf' : Bytes} {n : Nat} {h' : Heap}
    {Q : Val → St → Prop} (hp : Pts globs mem q (some m)) (hn : n ≤ m.length) (hr : push 256 buf (m.take n) s heap = .ok (buf', h'))
    (hq : ∀ v mem', HP m0 k t0 B bid sg sb buf' ex h' mem' → Q v ⟨fr, h', mem', stk⟩) :
    WP ((cx env fuel d).call "chillbuff_push_back" [.ptr (some (.stack k, 0)), q, .int n]) s ⟨fr, heap, mem, stk⟩ Q :=
  wp_push env fuel d (st := ⟨fr, heap, mem, stk⟩) h.bufA (fun _ => hp) hn hr fun v mem' h1 h2 =>
    hq v mem' ((h.pushBuf h1 h2).keep (Steady.push _ _ _ _ _ _ _ hr))

theorem HP.wpPushSb (env : Env) (fuel d : Nat) (h : HP m0 k t0 B bid sg sb buf ex heap mem) {q : Val} {m sb' : Bytes} {n : Nat} {h' : Heap}
    {Q : Val → St → Prop} (hp : Pts globs mem q (some m)) (hn : n ≤ m.length) (hr : push 1024 sb (m.take n) s heap = .ok (sb', h'))
    (hq : ∀ v mem', HP m0 k t0 B bid sg sb' buf ex h' mem' → Q v ⟨fr, h', mem', stk⟩) :
    WP ((cx env fuel d).call "chillbuff_push_back" [.ptr (some (B, 0)), q, .int n]) s ⟨fr, heap, mem, stk⟩ Q :=
  wp_push env fuel d (st := ⟨fr, heap, mem, stk⟩) h.sbA (fun _ => hp) hn hr fun v mem' h1 h2 =>
    hq v mem' ((h.pushSb h1 h2).keep (Steady.push _ _ _ _ _ _ _ hr))

theorem claims_countable {l : List Claim} {fuel N : Nat} (h : claimsBytes (some l) ≤ N) (hf : N < fuel) (hs : 8 * N < 18446744073709551616) :
    ∀ c ∈ l, Countable fuel c.key ∧ Countable fuel c.value := by
  intro c hc
  have h1 := claimBytes_le hc
  simp only [claimsBytes, Option.getD_some] at h
  rw [show claimBytes c = 8 + 6 * (c.key.bytes.getD []).length + 6 * (c.value.bytes.getD []).length from rfl] at h1
  constructor
  · intro m hm
    rw [hm] at h1
    simp only [Option.getD_some] at h1
    omega
  · intro m hm
    rw [hm] at h1
    simp only [Option.getD_some] at h1
    omega

/-- `l8w8jwt_write_claims(&buff, claims, n)` where the claims are objects of `m1`. -/
theorem HP.wpWrite (env : Env) (fuel d : Nat) (h : HP m0 k t0 B bid sg sb buf ex heap mem) {m1 : Blk → Option (List Val)} (ho : Over m1 mem)
    (hn1 : m1 (.stack k) = none) (hn2 : m1 (.heap t0) = none) {p1 : Val} {cs : Option (List Claim)} (hc : ClaimsAt m1 p1 cs) {N n : Nat}
    (hN : claimsBytes cs ≤ N) (hN1 : N < fuel) (hN2 : 8 * N < 18446744073709551616) (hn : n < fuel) (hstk : stk = k + 1 + ex.length)
    {buf' : Bytes} {h' : Heap} (hr : writeClaimsIgnore env buf cs n s heap = .ok (buf', h')) {Q : Val → St → Prop}
    (hq : ∀ v mem', HP m0 k t0 B bid sg sb buf' ex h' mem' → Q v ⟨fr, h', mem', stk⟩) :
    WP ((cx env fuel (d + 2)).call "l8w8jwt_write_claims" [.ptr (some (.stack k, 0)), p1, .int n]) s ⟨fr, heap, mem, stk⟩ Q := by
  subst hstk
  have hst := steady_ignore _ _ _ _ _ _ _ _ hr
  rw [cx_fun _ _ _ (fn := l8w8jwt_write_claims) rfl]
  simp only [writeClaimsIgnore] at hr
  obtain ⟨⟨rc, o⟩, h1, e1, hr⟩ := M.bind_inv hr
  cases hr
  cases cs with
  | none =>
    cases e1
    obtain rfl : p1 = .ptr none := hc
    have e := write_claims_null env fuel (d + 1) s ⟨fr, heap, mem, k + 1 + ex.length⟩ (h.wf fr) (.ptr (some (.stack k, 0))) (.ptr none) n (.inr ⟨⟨_, rfl⟩, rfl⟩)
    rw [wp_of_eq e]
    exact hq _ mem h
  | some l =>
    have ho' : o.isSome := by
      simp only [writeClaims] at e1
      split at e1
      · cases e1; rfl
      · obtain ⟨p, _, e2, e1⟩ := M.bind_inv e1
        split at e1
        · cases e1; rfl
        · obtain ⟨y, e3, e1⟩ := M.liftBind_inv e1
          obtain ⟨z, _, e4, e1⟩ := M.bind_inv e1
          obtain ⟨_, _, e5, e1⟩ := M.bind_inv e1
          cases e1
          rfl
    obtain ⟨b', rfl⟩ := Option.isSome_iff_exists.mp ho'
    have hbs : ∀ x ∈ [Blk.stack k, Blk.heap t0], x.own = true ∧ m1 x = none := by
      intro x hx
      simp only [List.mem_cons, List.not_mem_nil, or_false] at hx
      rcases hx with rfl | rfl
      · exact ⟨rfl, hn1⟩
      · exact ⟨rfl, hn2⟩
    have hap : Apart p1 [Blk.stack k, Blk.heap t0] := by
      obtain ⟨b, o, l', rfl, hl, -⟩ := hc
      exact apart_old rfl hl hbs
    have haps : ∀ b o l', p1 = .ptr (some (b, o)) → cont globs mem b = some l' → ∀ i, i < l.length →
        ApartCells l' (o.toNat + 5 * i) [Blk.stack k, Blk.heap t0] := by
      intro b o l' e hl i hi
      obtain ⟨b2, o2, l2, rfl, hl2, -, hcs⟩ := hc
      cases e
      have hl3 := ho.cont hl2
      rw [hl3] at hl
      cases hl
      obtain ⟨kv, vv, a1, -, a3, -, -, a6, a7, -⟩ := hcs i (l[i]) (List.getElem?_eq_getElem hi)
      rw [Int.toNat_natCast]
      constructor
      · intro v hv
        rw [a1] at hv
        cases hv
        exact a6.apart hbs
      · intro v hv
        rw [a3] at hv
        cases hv
        exact a7.apart hbs
    obtain ⟨mem', e, hb, hf⟩ := write_claims_text env fuel d s ⟨fr, heap, mem, k + 1 + ex.length⟩ (h.wf fr) (.stack k) t0 256 n buf p1 l h.bufA
      (ho.claims hc) hap haps (claims_countable hN hN1 hN2) hn rc b' h' e1
    rw [wp_of_eq e]
    exact hq _ mem' ((h.pushBuf hb hf).keep hst)


/-! ## src/encode.c:86-133: the switch -/

/-- `chillbuff_push_back(.., q, n)` -/
def pushE (i : Nat) (q n : Expr) : Stmt := .exp (.call "chillbuff_push_back" (.cons (.loc i) (.cons q (.cons n .nil))))

/-- One case of the switch. -/
def algCase (v : Int) (e : Bytes) (n : Int) (K : Stmt) : Stmt := .seq (.case v) (.seq (pushE 3 (.str e) (.num n)) (.seq .brk K))

def algSwitch : Stmt :=
  .switch (.load (.int .i32) (.loc 1)) (
    algCase 0 (str "{\"alg\":\"HS256\",\"typ\":\"JWT\"") 26 (algCase 1 (str "{\"alg\":\"HS384\",\"typ\":\"JWT\"") 26 (
    algCase 2 (str "{\"alg\":\"HS512\",\"typ\":\"JWT\"") 26 (algCase 3 (str "{\"alg\":\"RS256\",\"typ\":\"JWT\"") 26 (
    algCase 4 (str "{\"alg\":\"RS384\",\"typ\":\"JWT\"") 26 (algCase 5 (str "{\"alg\":\"RS512\",\"typ\":\"JWT\"") 26 (
    algCase 6 (str "{\"alg\":\"PS256\",\"typ\":\"JWT\"") 26 (algCase 7 (str "{\"alg\":\"PS384\",\"typ\":\"JWT\"") 26 (
    algCase 8 (str "{\"alg\":\"PS512\",\"typ\":\"JWT\"") 26 (algCase 9 (str "{\"alg\":\"ES256\",\"typ\":\"JWT\"") 26 (
    algCase 10 (str "{\"alg\":\"ES384\",\"typ\":\"JWT\"") 26 (algCase 11 (str "{\"alg\":\"ES512\",\"typ\":\"JWT\"") 26 (
    algCase 12 (str "{\"alg\":\"ES256K\",\"typ\":\"JWT\",\"kty\":\"EC\",\"crv\":\"secp256k1\"") 56 (
    algCase 13 (str "{\"alg\":\"EdDSA\",\"typ\":\"JWT\",\"kty\":\"EC\",\"crv\":\"Ed25519\"") 53 (
    .seq .default (.seq (.exp (.call "chillbuff_free" (.cons (.loc 3) .nil))) (.ret (.num 200))))))))))))))))))

theorem wp_caseMiss {c : Ctx} {v k : Int} {e : Bytes} {n : Int} {K : Stmt} {st : St} {Q : Ctl → St → Prop} (hv : ¬ k = v)
    (hq : WP (exec c K (.case k)) s st Q) : WP (exec c (algCase v e n K) (.case k)) s st Q := by
  unfold algCase pushE
  xs [hv]
  exact hq

theorem wp_caseDflt {c : Ctx} {v : Int} {e : Bytes} {n : Int} {K : Stmt} {st : St} {Q : Ctl → St → Prop}
    (hq : WP (exec c K .dflt) s st Q) : WP (exec c (algCase v e n K) .dflt) s st Q := by
  unfold algCase pushE
  xs []
  exact hq

theorem wp_caseHit {c : Ctx} {v : Int} {e : Bytes} {n : Int} {K : Stmt} {st : St} {Q : Ctl → St → Prop}
    (hq : WP (exec c (pushE 3 (.str e) (.num n)) .run) s st (fun r st1 => r = .next .run ∧ Q .brk st1)) :
    WP (exec c (algCase v e n K) (.case v)) s st Q := by
  unfold algCase
  simp only [wp_seq, case_hit, then_next]
  refine WP_mono hq ?_
  rintro r st1 ⟨rfl, h⟩
  simp only [then_next, wp_seq, wp_brk, then_brk]
  exact h

/-- The text of the header claims that depend on `alg`. -/
theorem HP.wpSwitch (env : Env) (fuel d : Nat) {P : Blk} {p : EncParams} {w : EncPtrs} (hE : EncAt mem P p w) {b0 b2 : Val} {rest : List Val}
    (hH : HP m0 k t0 B bid sg sb buf ex heap mem) {Q : Ctl → St → Prop}
    (h1 : ∀ e n, headerPrefix p.alg = some (e, n) → n ≤ e.length ∧ ∃ buf' h', push 256 buf (e.take n) s heap = .ok (buf', h') ∧
      ∀ mem', HP m0 k t0 B bid sg sb buf' ex h' mem' →
        Q (.next .run) ⟨b0 :: .ptr (some (P, 0)) :: b2 :: .ptr (some (.stack k, 0)) :: rest, h', mem', stk⟩)
    (h2 : headerPrefix p.alg = none → ∀ mem', (∀ x, x ≠ .stack k → x ≠ .heap t0 → mem' x = mem x) → mem' (.heap t0) = none →
      Q (.ret (.int 200)) ⟨b0 :: .ptr (some (P, 0)) :: b2 :: .ptr (some (.stack k, 0)) :: rest, { heap with live := heap.live.erase t0 }, mem', stk⟩) :
    WP (exec (cx env fuel d) algSwitch .run) s ⟨b0 :: .ptr (some (P, 0)) :: b2 :: .ptr (some (.stack k, 0)) :: rest, heap, mem, stk⟩ Q := by
  unfold algSwitch
  rw [wp_switch]
  xs []
  refine wp_loadV (c := cx env fuel d) (by exact hE.cont) (by omega) (by rfl) (asTy_i32 _ hE.alg.1 hE.alg.2) ?_
  simp only [Lift_ok, Val.getInt]
  have hit : ∀ {v : Int} {e : Bytes} {n : Nat} {K b : Stmt}, headerPrefix p.alg = some (e, n) → 
      WP (exec (cx env fuel d) (algCase v e n K) (.case v)) s
        ⟨b0 :: .ptr (some (P, 0)) :: b2 :: .ptr (some (.stack k, 0)) :: rest, heap, mem, stk⟩ (Dflt (cx env fuel d) b s Q) := by
    intro v e n K b he
    obtain ⟨hn, buf', h', hp, hq⟩ := h1 e n he
    apply wp_caseHit
    unfold pushE
    xs []
    refine hH.wpPush env fuel d (m := e ++ [0]) (n := n) (pts_lit _ _) (by simp; omega) (by rw [List.take_append_of_le_length hn]; exact hp) ?_
    intro v mem' hH'
    exact ⟨rfl, hq mem' hH'⟩
  by_cases a0 : p.alg = 0
  · rw [a0]
    exact hit (v := 0) (n := 26) (by rw [a0]; rfl)
  by_cases a1 : p.alg = 1
  · rw [a1]
    refine wp_caseMiss (by decide) ?_
    exact hit (v := 1) (n := 26) (by rw [a1]; rfl)
  by_cases a2 : p.alg = 2
  · rw [a2]
    refine wp_caseMiss (by decide) ?_
    refine wp_caseMiss (by decide) ?_
    exact hit (v := 2) (n := 26) (by rw [a2]; rfl)
  by_cases a3 : p.alg = 3
  · rw [a3]
    refine wp_caseMiss (by decide) ?_
    refine wp_caseMiss (by decide) ?_
    refine wp_caseMiss (by decide) ?_
    exact hit (v := 3) (n := 26) (by rw [a3]; rfl)
  by_cases a4 : p.alg = 4
  · rw [a4]
    refine wp_caseMiss (by decide) ?_
    refine wp_caseMiss (by decide) ?_
    refine wp_caseMiss (by decide) ?_
    refine wp_caseMiss (by decide) ?_
    exact hit (v := 4) (n := 26) (by rw [a4]; rfl)
  by_cases a5 : p.alg = 5
  · rw [a5]
    refine wp_caseMiss (by decide) ?_
    refine wp_caseMiss (by decide) ?_
    refine wp_caseMiss (by decide) ?_
    refine wp_caseMiss (by decide) ?_
    refine wp_caseMiss (by decide) ?_
    exact hit (v := 5) (n := 26) (by rw [a5]; rfl)
  by_cases a6 : p.alg = 6
  · rw [a6]
    refine wp_caseMiss (by decide) ?_
    refine wp_caseMiss (by decide) ?_
    refine wp_caseMiss (by decide) ?_
    refine wp_caseMiss (by decide) ?_
    refine wp_caseMiss (by decide) ?_
    refine wp_caseMiss (by decide) ?_
    exact hit (v := 6) (n := 26) (by rw [a6]; rfl)
  by_cases a7 : p.alg = 7
  · rw [a7]
    refine wp_caseMiss (by decide) ?_
    refine wp_caseMiss (by decide) ?_
    refine wp_caseMiss (by decide) ?_
    refine wp_caseMiss (by decide) ?_
    refine wp_caseMiss (by decide) ?_
    refine wp_caseMiss (by decide) ?_
    refine wp_caseMiss (by decide) ?_
    exact hit (v := 7) (n := 26) (by rw [a7]; rfl)
  by_cases a8 : p.alg = 8
  · rw [a8]
    refine wp_caseMiss (by decide) ?_
    refine wp_caseMiss (by decide) ?_
    refine wp_caseMiss (by decide) ?_
    refine wp_caseMiss (by decide) ?_
    refine wp_caseMiss (by decide) ?_
    refine wp_caseMiss (by decide) ?_
    refine wp_caseMiss (by decide) ?_
    refine wp_caseMiss (by decide) ?_
    exact hit (v := 8) (n := 26) (by rw [a8]; rfl)
  by_cases a9 : p.alg = 9
  · rw [a9]
    refine wp_caseMiss (by decide) ?_
    refine wp_caseMiss (by decide) ?_
    refine wp_caseMiss (by decide) ?_
    refine wp_caseMiss (by decide) ?_
    refine wp_caseMiss (by decide) ?_
    refine wp_caseMiss (by decide) ?_
    refine wp_caseMiss (by decide) ?_
    refine wp_caseMiss (by decide) ?_
    refine wp_caseMiss (by decide) ?_
    exact hit (v := 9) (n := 26) (by rw [a9]; rfl)
  by_cases a10 : p.alg = 10
  · rw [a10]
    refine wp_caseMiss (by decide) ?_
    refine wp_caseMiss (by decide) ?_
    refine wp_caseMiss (by decide) ?_
    refine wp_caseMiss (by decide) ?_
    refine wp_caseMiss (by decide) ?_
    refine wp_caseMiss (by decide) ?_
    refine wp_caseMiss (by decide) ?_
    refine wp_caseMiss (by decide) ?_
    refine wp_caseMiss (by decide) ?_
    refine wp_caseMiss (by decide) ?_
    exact hit (v := 10) (n := 26) (by rw [a10]; rfl)
  by_cases a11 : p.alg = 11
  · rw [a11]
    refine wp_caseMiss (by decide) ?_
    refine wp_caseMiss (by decide) ?_
    refine wp_caseMiss (by decide) ?_
    refine wp_caseMiss (by decide) ?_
    refine wp_caseMiss (by decide) ?_
    refine wp_caseMiss (by decide) ?_
    refine wp_caseMiss (by decide) ?_
    refine wp_caseMiss (by decide) ?_
    refine wp_caseMiss (by decide) ?_
    refine wp_caseMiss (by decide) ?_
    refine wp_caseMiss (by decide) ?_
    exact hit (v := 11) (n := 26) (by rw [a11]; rfl)
  by_cases a12 : p.alg = 12
  · rw [a12]
    refine wp_caseMiss (by decide) ?_
    refine wp_caseMiss (by decide) ?_
    refine wp_caseMiss (by decide) ?_
    refine wp_caseMiss (by decide) ?_
    refine wp_caseMiss (by decide) ?_
    refine wp_caseMiss (by decide) ?_
    refine wp_caseMiss (by decide) ?_
    refine wp_caseMiss (by decide) ?_
    refine wp_caseMiss (by decide) ?_
    refine wp_caseMiss (by decide) ?_
    refine wp_caseMiss (by decide) ?_
    refine wp_caseMiss (by decide) ?_
    exact hit (v := 12) (n := 56) (by rw [a12]; rfl)
  by_cases a13 : p.alg = 13
  · rw [a13]
    refine wp_caseMiss (by decide) ?_
    refine wp_caseMiss (by decide) ?_
    refine wp_caseMiss (by decide) ?_
    refine wp_caseMiss (by decide) ?_
    refine wp_caseMiss (by decide) ?_
    refine wp_caseMiss (by decide) ?_
    refine wp_caseMiss (by decide) ?_
    refine wp_caseMiss (by decide) ?_
    refine wp_caseMiss (by decide) ?_
    refine wp_caseMiss (by decide) ?_
    refine wp_caseMiss (by decide) ?_
    refine wp_caseMiss (by decide) ?_
    refine wp_caseMiss (by decide) ?_
    exact hit (v := 13) (n := 53) (by rw [a13]; rfl)
  have hn : headerPrefix p.alg = none := by
    simp [headerPrefix, a0, a1, a2, a3, a4, a5, a6, a7, a8, a9, a10, a11, a12, a13]
  refine wp_caseMiss a0 ?_
  refine wp_caseMiss a1 ?_
  refine wp_caseMiss a2 ?_
  refine wp_caseMiss a3 ?_
  refine wp_caseMiss a4 ?_
  refine wp_caseMiss a5 ?_
  refine wp_caseMiss a6 ?_
  refine wp_caseMiss a7 ?_
  refine wp_caseMiss a8 ?_
  refine wp_caseMiss a9 ?_
  refine wp_caseMiss a10 ?_
  refine wp_caseMiss a11 ?_
  refine wp_caseMiss a12 ?_
  refine wp_caseMiss a13 ?_
  xs []
  refine wp_caseDflt ?_
  refine wp_caseDflt ?_
  refine wp_caseDflt ?_
  refine wp_caseDflt ?_
  refine wp_caseDflt ?_
  refine wp_caseDflt ?_
  refine wp_caseDflt ?_
  refine wp_caseDflt ?_
  refine wp_caseDflt ?_
  refine wp_caseDflt ?_
  refine wp_caseDflt ?_
  refine wp_caseDflt ?_
  refine wp_caseDflt ?_
  refine wp_caseDflt ?_
  xs []
  refine wp_bufFree env fuel d hH.bufA hH.live ?_
  intro v mem' g1 g2 g3
  xs []
  exact h2 hn mem' g3 g2
/-! ## src/encode.c:135-141: the claims in the header -/

/-- A member of the parameters. -/
def parE (t : STy) (i : Int) : Expr := .load t (.padd 1 (.loc 1) (.num i))

def writeE (q n : Expr) : Stmt := .exp (.call "l8w8jwt_write_claims" (.cons (.loc 3) (.cons q (.cons n .nil))))

def headClaims : Stmt :=
  .ite (.cmp .gt (parE (.int .u64) 13) (.num 0)) (.seq (pushE 3 (.str [44]) (.num 1)) (writeE (parE .ptr 12) (parE (.int .u64) 13))) .skip

theorem HP.wpHeader (env : Env) (fuel d : Nat) {P : Blk} {p : EncParams} {w : EncPtrs} {base : Blk → Option (List Val)}
    (hb : Base base m0 k t0 B bid) (hE : EncAt base P p w) (hF : Fits fuel p) {b0 b2 : Val} {rest : List Val} (hstk : stk = k + 1 + ex.length)
    (hH : HP m0 k t0 B bid sg sb buf ex heap mem) {K : Stmt} {Q : Ctl → St → Prop} {buf' : Bytes} {h' : Heap}
    (hr : headerText env p buf s heap = .ok (buf', h'))
    (hq : ∀ mem', HP m0 k t0 B bid sg sb buf' ex h' mem' →
      WP (exec (cx env fuel (d + 2)) K .run) s ⟨b0 :: .ptr (some (P, 0)) :: b2 :: .ptr (some (.stack k, 0)) :: rest, h', mem', stk⟩ Q) :
    WP (exec (cx env fuel (d + 2)) (.seq headClaims (.seq (pushE 3 (.str [125]) (.num 1)) K)) .run) s
      ⟨b0 :: .ptr (some (P, 0)) :: b2 :: .ptr (some (.stack k, 0)) :: rest, heap, mem, stk⟩ Q := by
  simp only [headerText] at hr
  obtain ⟨b1, h1, e1, hr⟩ := M.bind_inv hr
  have hend : ∀ mem', HP m0 k t0 B bid sg sb b1 ex h1 mem' → WP (exec (cx env fuel (d + 2)) (.seq (pushE 3 (.str [125]) (.num 1)) K) .run) s
      ⟨b0 :: .ptr (some (P, 0)) :: b2 :: .ptr (some (.stack k, 0)) :: rest, h1, mem', stk⟩ Q := by
    intro mem' hH'
    rw [wp_seq]
    unfold pushE
    xs []
    refine hH'.wpPush env fuel (d + 2) (m := [125] ++ [0]) (n := 1) (pts_lit _ _) (by simp) (by exact hr) ?_
    intro v mem'' hH''
    exact hq mem'' hH''
  have hE1 := hE.over (hH.over hb)
  rw [wp_seq]
  unfold headClaims parE writeE
  rw [wp_if]
  xi []
  refine wp_ld (c := cx env fuel (d + 2)) (by exact hE1.cont) (by omega) (by rfl) (asTy_u64 _ hE.hcCount) ?_
  by_cases h0 : 0 < p.headerClaimsCount
  · rw [if_pos h0] at e1
    obtain ⟨b3, h3, e3, e1⟩ := M.bind_inv e1
    xi [show ((0 : Int) < (p.headerClaimsCount : Int)) from by omega]
    unfold pushE
    xi []
    refine hH.wpPush env fuel (d + 2) (m := [44] ++ [0]) (n := 1) (pts_lit _ _) (by simp) (by exact e3) ?_
    intro v mem' hH'
    have hE2 := hE.over (hH'.over hb)
    have hc : asTy (cx env fuel (d + 2)).cs .ptr w.hc = .ok (nul w.hc) := by
      rcases hE.hc.ptr with ⟨-, e⟩ | ⟨-, _, _, e⟩ <;> exact asTy_nulP _ e
    xi []
    refine wp_ld (c := cx env fuel (d + 2)) (by exact hE2.cont) (by omega) (by rfl) hc ?_
    xi []
    refine wp_ld (c := cx env fuel (d + 2)) (by exact hE2.cont) (by omega) (by rfl) (asTy_u64 _ hE.hcCount) ?_
    xi []
    refine hH'.wpWrite env fuel d (hH'.over hb) (hb.stk _ (Nat.le_refl _)) (hb.hp _ (Nat.le_refl _)) hE.hc (N := encBytes p) ?_ hF.bytes hF.size hF.hc hstk e1 ?_
    · unfold encBytes; omega
    intro v mem'' hH''
    exact hend mem'' hH''
  · rw [if_neg h0] at e1
    obtain ⟨rfl, rfl⟩ := M.pure_inv e1
    xi [show ¬ ((0 : Int) < (p.headerClaimsCount : Int)) from by omega]
    have := hend mem hH
    rw [wp_seq] at this
    exact this

/-! ## src/encode.c:143-158 and 202-213: a segment -/

/-- What is left at the end. -/
structure HEnd (m0 : Blk → Option (List Val)) (k : Nat) (B : Blk) (bid : Nat) (sb : Bytes) (mem : Blk → Option (List Val)) : Prop where
  sbA : BufAt mem B bid 1024 sb
  old : ∀ x, x ≠ B → x ≠ .heap bid → (∀ j, k ≤ j → x ≠ .stack j) → mem x = m0 x
  Bs : ∀ j, k ≤ j → B ≠ .stack j

theorem HP.endOf (hH : HP m0 k t0 B bid none sb buf ex heap mem) (hm0 : ∀ j, t0 ≤ j → m0 (.heap j) = none) {mem' : Blk → Option (List Val)}
    (h1 : ∀ x, x ≠ .stack k → x ≠ .heap t0 → mem' x = mem x) (h2 : mem' (.heap t0) = none) : HEnd m0 k B bid sb mem' where
  sbA := hH.sbA.frame h1 (hH.Bs k (Nat.le_refl _)) (hH.Bh t0 (Nat.le_refl _)) (by simp) (by have := hH.bt; omega)
  old := by
    intro x g1 g2 g3
    by_cases hx : ∃ j, t0 ≤ j ∧ x = .heap j
    · obtain ⟨j, hj, rfl⟩ := hx
      rw [hm0 j hj]
      by_cases hj' : j = t0
      · rw [hj']; exact h2
      · rw [h1 _ (by simp) (by simpa using hj'), hH.hp j (by omega)]; rfl
    · have g4 : ∀ j, t0 ≤ j → x ≠ .heap j := fun j hj e => hx ⟨j, hj, e⟩
      rw [h1 x (g3 k (Nat.le_refl _)) (g4 t0 (Nat.le_refl _))]
      exact hH.old x g1 g2 g3 g4
  Bs := hH.Bs

theorem HP.wpFree (env : Env) (fuel d : Nat) (hH : HP m0 k t0 B bid none sb buf ex heap mem) (hm0 : ∀ j, t0 ≤ j → m0 (.heap j) = none)
    {Q : Val → St → Prop} (hq : ∀ v mem', HEnd m0 k B bid sb mem' → Q v ⟨fr, { heap with live := heap.live.erase t0 }, mem', stk⟩) :
    WP ((cx env fuel d).call "chillbuff_free" [.ptr (some (.stack k, 0))]) s ⟨fr, heap, mem, stk⟩ Q := by
  refine wp_bufFree env fuel d hH.bufA hH.live ?_
  intro v mem' g1 g2 g3
  exact hq v mem' (hH.endOf hm0 g3 g2)

def b64Call : Stmt :=
  .exp (.set 2 (.call "l8w8jwt_base64_encode" (.cons (.num 1) (.cons (.load .ptr (.loc 3)) (.cons (.load (.int .u64) (.padd 1 (.loc 3) (.num 1)))
    (.cons (.loc 4) (.cons (.loc 5) .nil)))))))

def b64Fail : Stmt := .ite (.cmp .ne (.loc 2) (.num 0)) (.seq (.exp (.call "chillbuff_free" (.cons (.loc 3) .nil))) (.ret (.loc 2))) .skip

theorem HP.wpSegment (env : Env) (fuel d : Nat) {v4 v5 : Val} {ex' : List (List Val)} {b0 b1 b2 : Val} {rest : List Val}
    (hH : HP m0 k t0 B bid none sb buf ([v4] :: [v5] :: ex') heap mem) (hm0 : ∀ j, t0 ≤ j → m0 (.heap j) = none)
    (hn : buf.length < fuel) (hn2 : buf.length < 2 ^ 62) {o : BufOut} {h' : Heap}
    (hr : base64Encode true (some buf) buf.length false false s heap = .ok (o, h')) (hstk : stk = k + 1 + (ex'.length + 2)) {K : Stmt} {Q : Ctl → St → Prop}
    (hok : ∀ m len l mem', o = ⟨0, some (some ⟨heap.tick, m⟩), some len⟩ → len ≤ m.length → len < 18446744073709551616 →
      HP m0 k t0 B bid (some (heap.tick, cells m ++ l)) sb buf ([.ptr (some (.heap heap.tick, 0))] :: [.int len] :: ex') h' mem' → heap.tick ∈ h'.live →
      WP (exec (cx env fuel (d + 1)) K .run) s ⟨b0 :: b1 :: .int 0 :: .ptr (some (.stack k, 0)) :: .ptr (some (.stack (k + 1), 0)) ::
        .ptr (some (.stack (k + 2), 0)) :: rest, h', mem', stk⟩ Q)
    (herr : o.rc ≠ 0 → ∀ fr mem', t0 ∈ h'.live → HEnd m0 k B bid sb mem' →
      Q (.ret (.int o.rc)) ⟨fr, { h' with live := h'.live.erase t0 }, mem', stk⟩) :
    WP (exec (cx env fuel (d + 1)) (.seq b64Call (.seq b64Fail K)) .run) s
      ⟨b0 :: b1 :: b2 :: .ptr (some (.stack k, 0)) :: .ptr (some (.stack (k + 1), 0)) ::
        .ptr (some (.stack (k + 2), 0)) :: rest, heap, mem, stk⟩ Q := by
  subst hstk
  obtain ⟨-, hne, hcl, ⟨g, hst⟩, tl, harr⟩ := id hH.bufA
  have hst' : cont globs mem (.stack k) = _ := (cont_own rfl).trans hst
  have hx4 : mem (.stack (k + 1)) = some [v4] := by have := hH.ex 0; simpa using this
  have hx5 : mem (.stack (k + 2)) = some [v5] := by have := hH.ex 1; simpa using this
  rw [wp_seq]
  unfold b64Call
  xs []
  refine wp_loadV (c := cx env fuel (d + 1)) (by exact hst') (v := .ptr (some (.heap t0, 0))) (by omega) (by rfl) rfl ?_
  xs []
  refine wp_ld (c := cx env fuel (d + 1)) (by exact hst') (by omega) (by rfl) (asTy_u64 _ (by omega)) ?_
  xs []
  rw [cx_fun _ _ _ (fn := l8w8jwt_base64_encode) rfl]
  have hpts : ∃ m, Pts globs mem (.ptr (some (.heap t0, 0))) (some m) ∧ buf.length ≤ m.length ∧ m.take buf.length = buf := by
    refine ⟨_, ⟨.heap t0, 0, _, rfl, (cont_own rfl).trans harr, Nat.zero_le _, rfl⟩, ?_, ?_⟩
    · simp [bytesFrom, toBytes_cells_append]
    · simp [bytesFrom, toBytes_cells_append]
  obtain ⟨m1, hp1, hl1, ht1⟩ := hpts
  have e := base64_encode_text env fuel d s ⟨b0 :: b1 :: b2 :: .ptr (some (.stack k, 0)) :: .ptr (some (.stack (k + 1), 0)) ::
        .ptr (some (.stack (k + 2), 0)) :: rest, heap, mem, k + 1 + (ex'.length + 2)⟩ (hH.wf _) 1 (.ptr (some (.heap t0, 0)))
    (.ptr (some (.stack (k + 1), 0))) (.ptr (some (.stack (k + 2), 0))) (some m1) buf.length false false hp1
    ⟨0, .stack (k + 1), 0, [v4], rfl, rfl, hx4, rfl⟩ ⟨0, .stack (k + 2), 0, [v5], rfl, rfl, hx5, rfl⟩ (by simp [Sep, Val.blk]) (by simp [Sep, Val.blk])
    (by omega) o h' (by rw [b64_take _ _ _ hl1, ht1]; exact hr) hn
  rw [wp_of_eq e]
  rcases b64_inv hn2 hr with ⟨hrc, hlen, hout, hk⟩ | ⟨m, len, rfl, rfl, hm1, hm2, hm3⟩
  · have hH' : ∃ v4', HP m0 k t0 B bid none sb buf ([v4'] :: [v5] :: ex') h' (bufMem mem (.ptr (some (.stack (k + 1), 0))) (.ptr (some (.stack (k + 2), 0))) (b64OutSize buf.length) o) := by
      rcases hout with ho | ho
      · refine ⟨v4, ?_⟩
        simp only [bufMem, ho, hlen, Option.toList, List.map_nil, wr_nil]
        exact hH.keep hk
      · refine ⟨.ptr none, ?_⟩
        simp only [bufMem, ho, hlen, Option.toList, List.map_nil, wr_nil, newBlk, ptrVal]
        have := (hH.keep hk).setEx (i := 0) (by simp) [.ptr none]
        rw [show (0 : Int) = ((0 : Nat) : Int) from rfl, wr_some hx4]
        exact this
    obtain ⟨v4', hH'⟩ := hH'
    unfold b64Fail
    have hrc' : ¬ (o.rc : Int) = 0 := by omega
    xs [hrc']
    refine hH'.wpFree env fuel (d + 1) hm0 ?_
    intro v mem' hE
    xs []
    exact herr hrc _ mem' hH'.live hE
  · have hk2 : k + 2 = k + 1 + 1 := rfl
    have hH' : HP m0 k t0 B bid (some (heap.tick, cells m ++ List.replicate (b64OutSize buf.length - m.length) .undef)) sb buf
        ([.ptr (some (.heap heap.tick, 0))] :: [.int len] :: ex') { tick := heap.tick + 1, live := heap.tick :: heap.live }
        (bufMem mem (.ptr (some (.stack (k + 1), 0))) (.ptr (some (.stack (k + 2), 0))) (b64OutSize buf.length)
          { rc := 0, out := some (some ⟨heap.tick, m⟩), len := some len }) := by
      have h1 := (hH.setEx (i := 0) (by simp) [.ptr (some (.heap heap.tick, 0))]).alloc (cells m ++ List.replicate (b64OutSize buf.length - m.length) .undef)
      have h2 := h1.setEx (i := 1) (by simp) [.int len]
      simp only [bufMem, Option.toList, List.map_cons, List.map_nil, newBlk, ptrVal]
      rw [show (0 : Int) = ((0 : Nat) : Int) from rfl, wr_some hx4, wr_some (l := [v5])]
      · exact h2
      · rw [upd_ne _ _ (by simp), upd_ne _ _ (by simp)]; exact hx5
    unfold b64Fail
    xs []
    exact hok m len _ _ rfl hm2 (by omega) hH' (by simp)

end

end L8w8jwt.C
