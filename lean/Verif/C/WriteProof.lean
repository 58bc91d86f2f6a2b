import Verif.C.ClaimProof
/-!
# The text of l8w8jwt_write_claims
-/

namespace L8w8jwt.C

open Src

/-- The strings of a claim lie in other objects than the given ones. -/
def ApartCells (l : List Val) (o : Nat) (bs : List Blk) : Prop :=
  (∀ v, l[o]? = some v → Apart v bs) ∧ ∀ v, l[o + 2]? = some v → Apart v bs

/-- The string is short enough to be counted. -/
def Countable (fuel : Nat) (p : Ptr) : Prop := ∀ m, p.bytes = some m → 6 * m.length < 18446744073709551616 ∧ m.length < fuel

/-- Values of `first`. -/
def flag (b : Bool) : Val := .int (if b then 1 else 0)

theorem rdN_inv {α : Type} {m r : List α} {n : Nat} (h : rdN m n = .ok r) : n ≤ m.length ∧ r = m.take n := by
  unfold rdN at h
  split at h
  · cases h; exact ⟨by assumption, rfl⟩
  · cases h

theorem WMem.wpPush (env : Env) (fuel d : Nat) {s : Sched} {m0 mem : Blk → Option (List Val)} {B : Blk} {bid cap sk eid : Nat}
    {buf buf' ebuf m : Bytes} {fr : List Val} {h h' : Heap} {stk : Nat} {q : Val} {n : Nat} {Q : Val → St → Prop}
    (hW : WMem m0 mem B bid cap buf sk eid ebuf) (hp : Pts globs mem q (some m)) (hn : n ≤ m.length)
    (hr : L8w8jwt.push cap buf (m.take n) s h = .ok (buf', h'))
    (hq : ∀ v mem', WMem m0 mem' B bid cap buf' sk eid ebuf → Q v ⟨fr, h', mem', stk⟩) :
    WP ((cx env fuel d).call "chillbuff_push_back" [.ptr (some (B, 0)), q, .int n]) s ⟨fr, h, mem, stk⟩ Q :=
  wp_push env fuel d (st := ⟨fr, h, mem, stk⟩) hW.bldr (fun _ => hp) hn hr fun v mem' h1 h2 => hq v mem' (hW.push h1 h2)

theorem str_comma : str "," = [44] := by decide
theorem str_quote : str "\"" = [34] := by decide
theorem str_colon : str "\":" = [34, 58] := by decide

theorem write_body (env : Env) (fuel d : Nat) {s : Sched} {m0 mem : Blk → Option (List Val)} {B A : Blk} {bid cap sk eid o : Nat}
    {buf buf' ebuf : Bytes} {h h1 : Heap} {l : List Val} {c : Claim} {first first' : Bool} {p1 p2 x y : Val} {e step : Expr} {body : Stmt}
    {K : Ctl → St → Prop}
    (hbody : l8w8jwt_write_claims.loop1 = .loop e body step)
    (hW : WMem m0 mem B bid cap buf sk eid ebuf) (hl : cont globs m0 A = some l) (hol : o + 5 ≤ l.length)
    (hA : Apart (.ptr (some (A, 0))) [B, .heap bid, .stack sk, .heap eid])
    (hc : ClaimCells m0 l o c) (hap : ApartCells l o [B, .heap bid, .stack sk, .heap eid])
    (hck : Countable fuel c.key) (hcv : Countable fuel c.value)
    (hr : writeClaim cap env.charSigned buf first c s h = .ok ((buf', first'), h1))
    (hK : ∀ r mem' ebuf' x' y', (r = .next .run ∨ r = .cont) → WMem m0 mem' B bid cap buf' sk eid ebuf' →
      K r ⟨[.ptr (some (B, 0)), p1, p2, .ptr (some (.stack sk, 0)), flag first', .ptr (some (A, o)), x', y'], h1, mem', sk + 1⟩) :
    WP (exec (cx env fuel (d + 1)) body .run) s
      ⟨[.ptr (some (B, 0)), p1, p2, .ptr (some (.stack sk, 0)), flag first, .ptr (some (A, o)), x, y], h, mem, sk + 1⟩ K := by
  unfold l8w8jwt_write_claims.loop1 at hbody
  cases hbody
  obtain ⟨kv, vv, c1, c2, c3, c4, c5, c6, c7, c8, c9, c10, c11⟩ := hc
  have hAc : ∀ {mem' : Blk → Option (List Val)} {buf2 ebuf2 : Bytes}, WMem m0 mem' B bid cap buf2 sk eid ebuf2 → cont globs mem' A = some l := by
    intro mem' buf2 ebuf2 h
    refine h.cont hl ?_ ?_ ?_ ?_ <;> rintro rfl
    · exact hA _ (by simp) rfl
    · exact hA _ (by simp) rfl
    · exact hA _ (by simp) rfl
    · exact hA _ (by simp) rfl
  have hak := hap.1 kv c1
  have hav := hap.2 vv c3
  xi []
  rw [wp_if]
  xi []
  refine wp_loadV (l := l) (v := kv) (w := kv) ?_ (by omega) (by rw [Int.toNat_natCast]; exact c1) (asTy_pts _ c6) ?_
  · exact hAc hW
  cases hkey : c.key with
  | none =>
    rw [hkey] at c6
    obtain rfl : kv = .ptr none := c6
    simp only [writeClaim, hkey] at hr
    obtain ⟨e1, rfl⟩ := M.pure_inv hr
    cases e1
    xs []
    exact hK _ _ _ _ _ (.inr rfl) hW
  | some kb =>
  rw [hkey] at c6
  have hkv : ∃ q, kv = .ptr (some q) := by
    obtain ⟨b, o, c, rfl, -⟩ := c6
    exact ⟨_, rfl⟩
  obtain ⟨qk, rfl⟩ := hkv
  simp only [writeClaim, hkey] at hr
  obtain ⟨buf1, h2, r1, hr⟩ := M.bind_inv hr
  obtain ⟨kl, r2, hr⟩ := M.liftBind_inv hr
  obtain ⟨vl, r3, hr⟩ := M.liftBind_inv hr
  obtain ⟨ek, h5, r4, hr⟩ := M.bind_inv hr
  obtain ⟨buf2, h6, r5, hr⟩ := M.bind_inv hr
  obtain ⟨buf3, h7, r6, hr⟩ := M.bind_inv hr
  obtain ⟨buf4, h8, r7, hr⟩ := M.bind_inv hr
  xi []
  refine WP_mono (Q := fun r st => ∃ mem1, r = .next .run ∧ WMem m0 mem1 B bid cap buf1 sk eid ebuf ∧
    st = ⟨[.ptr (some (B, 0)), p1, p2, .ptr (some (.stack sk, 0)), flag first, .ptr (some (A, o)), x, y], h2, mem1, sk + 1⟩) ?_ ?_
  · cases first with
    | true =>
      simp only [if_true] at r1
      obtain ⟨rfl, rfl⟩ := M.pure_inv r1
      simp only [flag]
      xs []
      exact ⟨mem, hW, rfl⟩
    | false =>
      rw [if_neg (by simp), str_comma] at r1
      simp only [flag]
      xs []
      refine hW.wpPush env fuel (d + 1) (m := [44] ++ [0]) (n := 1) (pts_lit _ _) (by simp) r1 ?_
      intro v mem' hW'
      exact ⟨mem', rfl, hW', rfl⟩
  rintro r st1 ⟨mem1, rfl, hW1, rfl⟩
  have hdk : ∀ {P : Ptr} {n : Nat} {r : Bytes} {hh h' : Heap} {b0 : Bytes}, escapeClaimString env.charSigned P n s hh = .ok (r, h') →
      ∃ m, P.bytes = some m ∧ n ≤ m.length ∧ escapeLoop env.charSigned [] (m.take n) s hh = .ok (r, h') := by
    intro P n r hh h' b0 H
    simp only [escapeClaimString] at H
    obtain ⟨m, q2, H⟩ := M.liftBind_inv H
    obtain ⟨m', q4, H⟩ := M.liftBind_inv H
    obtain ⟨q5, rfl⟩ := rdN_inv q4
    cases hb : P.bytes with
    | none => rw [hb] at q2; cases q2
    | some m1 => rw [hb] at q2; cases q2; exact ⟨_, rfl, q5, H⟩
  have hlen : ∀ {P : Ptr} {n k : Nat}, lenOrStrlen P n = .ok k → (n ≠ 0 ∧ k = n) ∨ (n = 0 ∧ ∃ m, P.bytes = some m ∧ strlen m = .ok k) := by
    intro P n k H
    unfold lenOrStrlen at H
    split at H
    · cases H; exact .inl ⟨by assumption, rfl⟩
    · right
      refine ⟨by omega, ?_⟩
      cases hb : P.bytes with
      | none => rw [hb] at H; cases H
      | some m1 => rw [hb] at H; exact ⟨_, rfl, H⟩
  simp only [then_next, wp_seq, wp_exp, wp_set]
  refine wp_merge_same (.int kl) ?_ ?_
  · xi []
    refine wp_paddV (l := l) ?_ (by omega) (by omega) ?_
    · exact hAc hW1
    refine wp_loadV (l := l) (v := .int c.keyLength) (w := .int c.keyLength) ?_ (by omega) ?_ ?_ ?_
    · exact hAc hW1
    · rw [← c2]; congr 1
    · simp [asTy, wrap_u64 _ _ c8]
    rcases hlen r2 with ⟨hn0, rfl⟩ | ⟨hn0, m, hm, hs⟩
    · xi []
      refine wp_paddV (l := l) ?_ (by omega) (by omega) ?_
      · exact hAc hW1
      refine wp_loadV (l := l) (v := .int c.keyLength) (w := .int c.keyLength) ?_ (by omega) ?_ ?_ ?_
      · exact hAc hW1
      · rw [← c2]; congr 1
      · simp [asTy, wrap_u64 _ _ c8]
      exact ⟨rfl, rfl⟩
    · xi [hn0]
      refine wp_loadV (l := l) (v := .ptr (some qk)) (w := .ptr (some qk)) ?_ (by omega) (by rw [Int.toNat_natCast]; exact c1) rfl ?_
      · exact hAc hW1
      xi []
      rw [hm] at c6
      exact wp_strlen env fuel (d + 1) (hW1.pts c6 hak) hs ⟨rfl, rfl⟩
  simp only [List.set_cons_succ, List.set_cons_zero]
  refine wp_merge_same (.int vl) ?_ ?_
  · xi []
    refine wp_paddV (l := l) ?_ (by omega) (by omega) ?_
    · exact hAc hW1
    refine wp_loadV (l := l) (v := .int c.valueLength) (w := .int c.valueLength) ?_ (by omega) ?_ ?_ ?_
    · exact hAc hW1
    · rw [← c4]; congr 1
    · simp [asTy, wrap_u64 _ _ c9]
    rcases hlen r3 with ⟨hn0, rfl⟩ | ⟨hn0, m, hm, hs⟩
    · xi []
      refine wp_paddV (l := l) ?_ (by omega) (by omega) ?_
      · exact hAc hW1
      refine wp_loadV (l := l) (v := .int c.valueLength) (w := .int c.valueLength) ?_ (by omega) ?_ ?_ ?_
      · exact hAc hW1
      · rw [← c4]; congr 1
      · simp [asTy, wrap_u64 _ _ c9]
      exact ⟨rfl, rfl⟩
    · xi [hn0]
      refine wp_paddV (l := l) ?_ (by omega) (by omega) ?_
      · exact hAc hW1
      refine wp_loadV (l := l) (v := vv) (w := vv) ?_ (by omega) (by rw [← c3]; congr 1) (asTy_pts _ c7) ?_
      · exact hAc hW1
      xi []
      rw [hm] at c7
      exact wp_strlen env fuel (d + 1) (hW1.pts c7 hav) hs ⟨rfl, rfl⟩
  -- clear, escape the key
  xi []
  refine wp_clear env fuel (d + 1) hW1.esc ?_
  intro v mem2 hb2 hf2
  have hW2 := hW1.epush hb2 hf2
  obtain ⟨mk, hmk, hkl, hek⟩ := hdk (b0 := []) r4
  rw [hmk] at c6
  have hck1 := hck mk (by rw [hkey]; exact hmk)
  xi []
  refine wp_loadV (l := l) (v := .ptr (some qk)) (w := .ptr (some qk)) ?_ (by omega) (by rw [Int.toNat_natCast]; exact c1) rfl ?_
  · exact hAc hW2
  xi []
  rw [cx_fun _ _ _ (fn := l8w8jwt_escape_claim_string) rfl]
  refine wp_escape env fuel d (m := mk) ?_ hW2.esc (hW2.pts c6 hak) ⟨hak _ (by simp), hak _ (by simp)⟩ hkl (by omega) (by omega) hek ?_
  · exact hW2.stk
  intro v mem3 hb3 hf3
  have hW3 := hW2.epush hb3 hf3
  have hekl := escapeLoop_length hek
  rw [List.length_take] at hekl
  simp only [List.length_nil] at hekl
  -- the key
  xi []
  rw [str_quote] at r5
  refine hW3.wpPush env fuel (d + 1) (m := [34] ++ [0]) (n := 1) (pts_lit _ _) (by simp) r5 ?_
  intro v mem4 hW4
  have hpe : ∀ {mem' : Blk → Option (List Val)} {b1 b2 b3 e1 : Bytes} {hh hh' : Heap} {fr : List Val} {K : Val → St → Prop},
      WMem m0 mem' B bid cap b1 sk eid e1 → L8w8jwt.push cap b1 e1 s hh = .ok (b2, hh') → e1.length < 18446744073709551616 → fr[0]? = some (.ptr (some (B, 0))) →
      fr[3]? = some (.ptr (some (.stack sk, 0))) →
      (∀ v mem'', WMem m0 mem'' B bid cap b2 sk eid e1 → K v ⟨fr, hh', mem'', sk + 1⟩) →
      WP (eval (cx env fuel (d + 1)) (.call "chillbuff_push_back" (.cons (.loc 0) (.cons (.load .ptr (.loc 3))
        (.cons (.load (.int .u64) (.padd 1 (.loc 3) (.num 1))) .nil))))) s ⟨fr, hh, mem', sk + 1⟩ K := by
    intro mem' b1 b2 b3 e1 hh hh' fr K hW hp hlt hfr0 hfr3 hq
    obtain ⟨g1, g2, g3, ⟨g, g4⟩, rest, g5⟩ := hW.esc
    obtain ⟨m, hm1, hm2, hm3⟩ := hW.escPts
    have e0 : fr.getD 0 .undef = .ptr (some (B, 0)) := by simp [List.getD, hfr0]
    have e3 : fr.getD 3 .undef = .ptr (some (.stack sk, 0)) := by simp [List.getD, hfr3]
    xi [e0, e3]
    refine wp_loadV (l := [.ptr (some (.heap eid, 0)), .int e1.length, .int (256 : Nat), .int (1 : Nat), g])
      (v := .ptr (some (.heap eid, 0))) (w := .ptr (some (.heap eid, 0))) ?_ (by omega) rfl rfl ?_
    · exact g4
    xi [e3]
    refine wp_paddV (l := [.ptr (some (.heap eid, 0)), .int e1.length, .int (256 : Nat), .int (1 : Nat), g]) ?_ (by omega) (by simp) ?_
    · exact g4
    refine wp_loadV (l := [.ptr (some (.heap eid, 0)), .int e1.length, .int (256 : Nat), .int (1 : Nat), g]) (v := .int e1.length) (w := .int e1.length) ?_ (by omega) rfl ?_ ?_
    · exact g4
    · simp [asTy, wrap_u64 _ _ hlt]
    xi [e0]
    refine hW.wpPush env fuel (d + 1) (m := m) (n := e1.length) hm1 hm2 (by rw [hm3]; exact hp) ?_
    intro v mem'' hW''
    exact hq v mem'' hW''
  refine hpe (b3 := []) hW4 r6 (by omega) ?_ ?_ ?_
  · rfl
  · rfl
  intro v mem5 hW5
  xi []
  rw [str_colon] at r7
  refine hW5.wpPush env fuel (d + 1) (m := [34, 58] ++ [0]) (n := 2) (pts_lit _ _) (by simp) r7 ?_
  intro v mem6 hW6
  refine WP_mono (Q := fun r st => ∃ mem1 e1, r = .next .run ∧ first' = false ∧ WMem m0 mem1 B bid cap buf' sk eid e1 ∧
    st = ⟨[.ptr (some (B, 0)), p1, p2, .ptr (some (.stack sk, 0)), flag first, .ptr (some (A, o)), .int kl, .int vl], h1, mem1, sk + 1⟩) ?_ ?_
  · rw [wp_if]
    xi []
    refine wp_paddV (l := l) ?_ (by omega) (by omega) ?_
    · exact hAc hW6
    refine wp_loadV (l := l) (v := .int c.type) (w := .int c.type) ?_ (by omega) ?_ ?_ ?_
    · exact hAc hW6
    · rw [← c5]; congr 1
    · simp [asTy, wrapr_i32 _ c10 c11]
    by_cases hty : c.type = 0
    · rw [if_pos hty] at hr
      obtain ⟨buf5, h9, s1, hr⟩ := M.bind_inv hr
      obtain ⟨ev, h10, s2, hr⟩ := M.bind_inv hr
      obtain ⟨buf6, h11, s3, hr⟩ := M.bind_inv hr
      obtain ⟨buf7, h12, s4, hr⟩ := M.bind_inv hr
      obtain ⟨s5, rfl⟩ := M.pure_inv hr
      cases s5
      xi [hty]
      rw [str_quote] at s1
      refine hW6.wpPush env fuel (d + 1) (m := [34] ++ [0]) (n := 1) (pts_lit _ _) (by simp) s1 ?_
      intro v mem7 hW7
      xi []
      refine wp_clear env fuel (d + 1) hW7.esc ?_
      intro v mem8 hb8 hf8
      have hW8 := hW7.epush hb8 hf8
      obtain ⟨mv, hmv, hvl, hev⟩ := hdk (b0 := []) s2
      rw [hmv] at c7
      have hcv1 := hcv mv hmv
      xi []
      refine wp_paddV (l := l) ?_ (by omega) (by omega) ?_
      · exact hAc hW8
      refine wp_loadV (l := l) (v := vv) (w := vv) ?_ (by omega) (by rw [← c3]; congr 1) (asTy_pts _ c7) ?_
      · exact hAc hW8
      xi []
      rw [cx_fun _ _ _ (fn := l8w8jwt_escape_claim_string) rfl]
      refine wp_escape env fuel d (m := mv) ?_ hW8.esc (hW8.pts c7 hav) ⟨hav _ (by simp), hav _ (by simp)⟩ hvl (by omega) (by omega) hev ?_
      · exact hW8.stk
      intro v mem9 hb9 hf9
      have hW9 := hW8.epush hb9 hf9
      have hevl := escapeLoop_length hev
      rw [List.length_take] at hevl
      simp only [List.length_nil] at hevl
      simp only [then_next, wp_seq, wp_exp]
      refine hpe (b3 := []) hW9 s3 (by omega) ?_ ?_ ?_
      · rfl
      · rfl
      intro v mem10 hW10
      xi []
      rw [str_quote] at s4
      refine hW10.wpPush env fuel (d + 1) (m := [34] ++ [0]) (n := 1) (pts_lit _ _) (by simp) s4 ?_
      intro v mem11 hW11
      exact ⟨mem11, _, trivial, trivial, hW11, rfl⟩
    · rw [if_neg hty] at hr
      obtain ⟨mv, s1, hr⟩ := M.liftBind_inv hr
      obtain ⟨mv', s2, hr⟩ := M.liftBind_inv hr
      obtain ⟨buf5, h9, s3, hr⟩ := M.bind_inv hr
      obtain ⟨s4, rfl⟩ := M.pure_inv hr
      cases s4
      obtain ⟨s5, rfl⟩ := rdN_inv s2
      have hmv : c.value.bytes = some mv := by
        cases hb : c.value.bytes with
        | none => rw [hb] at s1; cases s1
        | some m1 => rw [hb] at s1; cases s1; rfl
      rw [hmv] at c7
      xi [hty]
      refine wp_paddV (l := l) ?_ (by omega) (by omega) ?_
      · exact hAc hW6
      refine wp_loadV (l := l) (v := vv) (w := vv) ?_ (by omega) (by rw [← c3]; congr 1) (asTy_pts _ c7) ?_
      · exact hAc hW6
      xi []
      refine hW6.wpPush env fuel (d + 1) (m := mv) (n := vl) (hW6.pts c7 hav) s5 s3 ?_
      intro v mem7 hW7
      exact ⟨mem7, _, rfl, rfl, hW7, rfl⟩
  rintro r st1 ⟨mem12, e12, rfl, rfl, hW12, rfl⟩
  xi []
  exact hK _ _ _ _ _ (.inl rfl) hW12

/-- src/claim.c:112-174: the text of `l8w8jwt_write_claims`: return code, content of the builder and state of the allocator are those of
the model; nothing else in memory changes. -/
theorem write_claims_text (env : Env) (fuel d : Nat) (s : Sched) (st : St) (hw : Wf st) (B : Blk) (bid cap n : Nat) (buf : Bytes) (p1 : Val)
    (cs : List Claim) (hB : BufAt st.mem B bid cap buf) (h1 : ClaimsAt st.mem p1 (some cs))
    (hap : Apart p1 [B, .heap bid]) (haps : ∀ b o l, p1 = .ptr (some (b, o)) → cont globs st.mem b = some l → ∀ i, i < cs.length →
      ApartCells l (o.toNat + 5 * i) [B, .heap bid])
    (hcn : ∀ c ∈ cs, Countable fuel c.key ∧ Countable fuel c.value) (hf : n < fuel) (rc : Nat) (buf' : Bytes) (h' : Heap)
    (hr : writeClaims cap env.charSigned (some buf) (some cs) n s st.heap = .ok ((rc, some buf'), h')) :
    ∃ mem', runFun (cx env fuel (d + 1)) l8w8jwt_write_claims [.ptr (some (B, 0)), p1, .int n] s st =
        .ok (.int rc, { st with heap := h', mem := mem' }) ∧
      BufAt mem' B bid cap buf' ∧ Frame st.mem mem' B bid := by
  suffices hWP : WP (runFun (cx env fuel (d + 1)) l8w8jwt_write_claims [.ptr (some (B, 0)), p1, .int n]) s st (fun v st' =>
      v = .int rc ∧ ∃ mem', st' = { st with heap := h', mem := mem' } ∧ BufAt mem' B bid cap buf' ∧ Frame st.mem mem' B bid) by
    obtain ⟨v, st', e, rfl, mem', rfl, g1, g2⟩ := hWP
    exact ⟨mem', e, g1, g2⟩
  obtain ⟨A, o, l, rfl, hl, hol, hc⟩ := h1
  have hex : ∀ {b : Blk} {l : List Val}, cont globs st.mem b = some l → b ≠ .stack st.stk ∧ b ≠ .heap st.heap.tick := by
    intro b l h
    constructor
    · rintro rfl
      simp only [cont, hw.stack _ (Nat.le_refl _)] at h
      cases h
    · exact hw.fresh h
  apply wp_runFun
  simp only [l8w8jwt_write_claims, Nat.reduceSub, List.replicate, List.cons_append, List.nil_append]
  simp only [writeClaims] at hr
  by_cases hn : n = 0
  · rw [if_pos hn] at hr
    obtain ⟨e, rfl⟩ := M.pure_inv hr
    cases e
    xs [hn]
    exact ⟨rfl, st.mem, by rw [dropStack_wf hw], hB, Frame.refl⟩
  rw [if_neg hn] at hr
  obtain ⟨esc, h2, r1, hr⟩ := M.bind_inv hr
  xs []
  have hBs : B ≠ .stack st.stk ∧ B ≠ .heap st.heap.tick := by
    obtain ⟨g1, g2, g3, ⟨g, g4⟩, -⟩ := hB
    exact hex ((cont_own g1).trans g4)
  have hbid : bid ≠ st.heap.tick := by
    obtain ⟨g1, g2, g3, -, rest, g5⟩ := hB
    have := (hex (b := .heap bid) g5).2
    simpa using this
  refine wp_init env fuel (d + 1) (cap := 256) (es := 1) (g := 0) (l := List.replicate 5 .undef) rfl ?_ rfl (by simp) ?_
  · exact upd_same _ _ _
  unfold alloc at r1
  by_cases hfa : s.failAlloc st.heap.tick = true
  · rw [if_pos hfa] at r1 ⊢
    cases r1
    obtain ⟨e, rfl⟩ := M.pure_inv hr
    cases e
    intro mem1 hf1 he1
    have hmem : dropStack st.stk mem1 = st.mem := by
      funext x
      cases x with
      | stack j =>
        simp only [dropStack]
        by_cases hj : st.stk ≤ j
        · rw [if_pos hj, hw.stack j hj]
        · rw [if_neg hj, hf1 _ (by intro e; cases e; omega) (by simp)]
          exact upd_ne _ _ (by intro e; cases e; omega)
      | heap j =>
        by_cases hj : j = st.heap.tick
        · subst hj
          exact he1.trans (by simp [upd])
        · exact (hf1 _ (by simp) (by simpa using hj)).trans (by simp [upd])
      | _ => exact (hf1 _ (by simp) (by simp)).trans (by simp [upd])
    xs []
    exact ⟨rfl, st.mem, by rw [hmem], hB, Frame.refl⟩
  rw [if_neg hfa] at r1 ⊢
  cases r1
  intro mem1 hb1 hf1
  obtain ⟨cs', r2, hr⟩ := M.liftBind_inv hr
  obtain ⟨hnl, rfl⟩ := rdN_inv r2
  obtain ⟨bufF, hF, r3, hr⟩ := M.bind_inv hr
  obtain ⟨u, hG, r4, hr⟩ := M.bind_inv hr
  obtain ⟨e, rfl⟩ := M.pure_inv hr
  cases e
  have hW : WMem st.mem mem1 B bid cap buf st.stk st.heap.tick [] := by
    have hfr : ∀ x, x ≠ .stack st.stk → x ≠ .heap st.heap.tick → mem1 x = st.mem x :=
      fun x h1 h2 => (hf1 x h1 h2).trans (upd_ne _ _ h1)
    refine ⟨hB.frame (b' := .stack st.stk) (id' := st.heap.tick) hfr hBs.1 hBs.2 (by simp) hbid, hb1, fun x _ _ h3 h4 => hfr x h3 h4, hBs.1, hBs.2, hbid,
      fun j hj => hw.stack j (by omega), ?_⟩
    rintro j hj rfl
    obtain ⟨g1, g2, g3, ⟨g, g4⟩, -⟩ := hB
    rw [hw.stack j (by omega)] at g4
    cases g4
  have hAe := hex hl
  have hA : Apart (.ptr (some (A, 0))) [B, .heap bid, .stack st.stk, .heap st.heap.tick] := by
    intro b hb e
    cases e
    simp only [List.mem_cons, List.not_mem_nil, or_false] at hb
    rcases hb with rfl | rfl | rfl | rfl
    · exact hap _ (by simp) rfl
    · exact hap _ (by simp) rfl
    · exact hAe.1 rfl
    · exact hAe.2 rfl
  xs []
  obtain ⟨body, hbody⟩ : ∃ body, l8w8jwt_write_claims.loop1 =
      .loop (.cmp .lt (.loc 5) (.padd 5 (.loc 1) (.loc 2))) body (.set 5 (.padd 5 (.loc 5) (.num 1))) := ⟨_, rfl⟩
  rw [hbody]
  refine wp_loop (fun k st' => ∃ (i : Nat) (h : Heap) (bf ebuf : Bytes) (first : Bool) (mem : Blk → Option (List Val)) (x y : Val),
    k = n - i ∧ i ≤ n ∧
    st' = ⟨[.ptr (some (B, 0)), .ptr (some (A, o)), .int n, .ptr (some (.stack st.stk, 0)), flag first, .ptr (some (A, (o + 5 * i : Nat))), x, y],
      h, mem, st.stk + 1⟩ ∧ WMem st.mem mem B bid cap bf st.stk st.heap.tick ebuf ∧
    writeClaimsLoop cap env.charSigned bf first ((cs.take n).drop i) s h = .ok (buf', hF)) n ?_
    ⟨0, _, buf, [], true, mem1, .undef, .undef, by simp, by omega, by simp [flag], hW, r3⟩ hf
  rintro k st' ⟨i, h, bf, ebuf, first, mem, x, y, rfl, hi, rfl, hWi, hloop⟩
  have hAc : cont globs mem A = some l := by
    refine hWi.cont hl ?_ ?_ ?_ ?_ <;> rintro rfl
    · exact hA _ (by simp) rfl
    · exact hA _ (by simp) rfl
    · exact hA _ (by simp) rfl
    · exact hA _ (by simp) rfl
  xs []
  refine wp_paddV (l := l) ?_ (by omega) (by omega) ?_
  · exact hAc
  by_cases hin : i = n
  · subst hin
    rw [List.drop_of_length_le (by simp; omega)] at hloop
    cases hloop
    xs []
    have hlive : st.heap.tick ∈ hF.live := (free_ok r4).1 _ rfl
    simp only [free, if_pos hlive] at r4
    cases r4
    refine wp_bufFree env fuel (d + 1) hWi.esc hlive ?_
    rintro v mem2 - hnone hf2
    have hbF := hWi.bldr.frame hf2 hBs.1 hBs.2 (by simp) hbid
    xs []
    refine ⟨rfl, _, rfl, hbF.drop ?_, ?_⟩
    · intro j hj
      by_cases hj' : j = st.stk
      · rw [hj']; exact hBs.1
      · exact hWi.freshB j (by omega)
    · intro x hx hxb
      cases x with
      | stack j =>
        simp only [dropStack]
        by_cases hj : st.stk ≤ j
        · rw [if_pos hj, hw.stack j hj]
        · have hne : Blk.stack j ≠ .stack st.stk := by intro e; cases e; omega
          rw [if_neg hj, hf2 _ hne (by simp)]
          exact hWi.frame _ hx hxb hne (by simp)
      | heap j =>
        show mem2 _ = _
        by_cases hj : j = st.heap.tick
        · subst hj
          rw [hnone, hw.heap _ (Nat.le_refl _)]
        · rw [hf2 _ (by simp) (by simpa using hj)]
          exact hWi.frame _ hx hxb (by simp) (by simpa using hj)
      | _ => exact (hf2 _ (by simp) (by simp)).trans (hWi.frame _ hx hxb (by simp) (by simp))
  have hlt : i < cs.length := by omega
  have hci := List.getElem?_eq_getElem hlt
  have hmem : cs[i] ∈ cs := List.getElem_mem hlt
  rw [List.drop_eq_getElem_cons (by simp; omega), List.getElem_take] at hloop
  have hcc := hc i _ hci
  generalize cs[i] = c at hloop hcc hmem
  simp only [writeClaimsLoop] at hloop
  obtain ⟨⟨bf', first'⟩, h3, q1, hloop⟩ := M.bind_inv hloop
  xi []
  refine write_body env fuel d (o := o + 5 * i) hbody hWi hl (by omega) hA hcc ?_ (hcn c hmem).1 (hcn c hmem).2 q1 ?_
  · have h0 := haps A o l rfl hl i hlt
    rw [Int.toNat_natCast] at h0
    obtain ⟨kv, vv, c1, -, c3, -, -, c6, c7, -⟩ := hcc
    have hmore : ∀ {v : Val} {m : Option Bytes}, Pts globs st.mem v m → Apart v [B, .heap bid] →
        Apart v [B, .heap bid, .stack st.stk, .heap st.heap.tick] := by
      intro v m hp ha b hb
      simp only [List.mem_cons, List.not_mem_nil, or_false] at hb
      cases m with
      | none => cases hp; simp [Val.blk]
      | some m =>
        obtain ⟨pb, po, pl, rfl, hpl, -⟩ := hp
        have := hex hpl
        rcases hb with rfl | rfl | rfl | rfl
        · exact ha _ (by simp)
        · exact ha _ (by simp)
        · intro e; cases e; exact this.1 rfl
        · intro e; cases e; exact this.2 rfl
    constructor
    · intro v hv
      rw [c1] at hv
      cases hv
      exact hmore c6 (h0.1 _ c1)
    · intro v hv
      rw [c3] at hv
      cases hv
      exact hmore c7 (h0.2 _ c3)
  · intro r mem2 ebuf2 x2 y2 hr2 hW2
    have hAc2 : cont globs mem2 A = some l := by
      refine hW2.cont hl ?_ ?_ ?_ ?_ <;> rintro rfl
      · exact hA _ (by simp) rfl
      · exact hA _ (by simp) rfl
      · exact hA _ (by simp) rfl
      · exact hA _ (by simp) rfl
    have hstep : WP (do let _ ← eval (cx env fuel (d + 1)) (Expr.set 5 (Expr.padd 5 (Expr.loc 5) (Expr.num 1))); pure ()) s
        ⟨[.ptr (some (B, 0)), .ptr (some (A, o)), .int n, .ptr (some (.stack st.stk, 0)), flag first', .ptr (some (A, (o + 5 * i : Nat))), x2, y2],
          h3, mem2, st.stk + 1⟩ (fun _ st' => st' = ⟨[.ptr (some (B, 0)), .ptr (some (A, o)), .int n, .ptr (some (.stack st.stk, 0)), flag first',
            .ptr (some (A, (o + 5 * (i + 1) : Nat))), x2, y2], h3, mem2, st.stk + 1⟩) := by
      xs []
      refine wp_paddV (l := l) ?_ (by omega) (by omega) ?_
      · exact hAc2
      xs []
      xeq
    rcases hr2 with rfl | rfl
    · rw [again_next]
      refine WP_mono hstep fun _ st' e => ?_
      exact ⟨n - (i + 1), by omega, i + 1, h3, bf', ebuf2, first', mem2, x2, y2, rfl, by omega, e, hW2, hloop⟩
    · rw [again_cont]
      refine WP_mono hstep fun _ st' e => ?_
      exact ⟨n - (i + 1), by omega, i + 1, h3, bf', ebuf2, first', mem2, x2, y2, rfl, by omega, e, hW2, hloop⟩

/-- src/claim.c:114-117: NULL arguments. -/
theorem write_claims_null (env : Env) (fuel d : Nat) (s : Sched) (st : St) (hw : Wf st) (p0 p1 : Val) (n : Nat)
    (h : p0 = .ptr none ∨ (∃ q, p0 = .ptr (some q)) ∧ p1 = .ptr none) :
    runFun (cx env fuel d) l8w8jwt_write_claims [p0, p1, .int n] s st = .ok (.int 100, st) := by
  apply run_of_wp
  apply wp_runFun
  simp only [l8w8jwt_write_claims, Nat.reduceSub, List.replicate, List.cons_append, List.nil_append]
  rcases h with rfl | ⟨⟨q, rfl⟩, rfl⟩
  · xs [dropStack_wf hw]
  · xs [dropStack_wf hw]

end L8w8jwt.C
