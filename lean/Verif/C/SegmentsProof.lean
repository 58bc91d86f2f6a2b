import Verif.C.UnescapeProof
import Verif.Proofs.Base64Dec
/-!
# The text of src/decode.c:165-226 does what Model/Decode.lean says
-/

namespace L8w8jwt.C

open Src

theorem toBytes_drop {l : List Val} {k : Nat} (h : k ≤ (toBytes l).length) : toBytes (l.drop k) = (toBytes l).drop k := by
  induction k generalizing l with
  | zero => rfl
  | succ k ih =>
    cases l with
    | nil => simp [toBytes] at h
    | cons v t =>
      cases v with
      | int x =>
        simp only [toBytes] at h ⊢
        split
        · rename_i hx
          rw [if_pos hx] at h
          simp only [List.drop_succ_cons]
          exact ih (by simpa using h)
        · rename_i hx
          rw [if_neg hx] at h
          simp at h
      | _ => simp [toBytes] at h

theorem bytes_drop {o k : Nat} {l : List Val} {m : Bytes} (hm : bytesFrom l o = m) (hk : k ≤ m.length) : bytesFrom l (o + k) = m.drop k := by
  unfold bytesFrom at hm ⊢
  rw [← List.drop_drop, toBytes_drop (by rw [hm]; exact hk), hm]

/-- Pointer arithmetic inside the bytes. -/
theorem pts_drop {mem : Blk → Option (List Val)} {b : Blk} {o k : Nat} {l : List Val} {m : Bytes} (h : cont globs mem b = some l)
    (hm : bytesFrom l o = m) (ho : o ≤ l.length) (hk : k ≤ m.length) :
    Pts globs mem (.ptr (some (b, ((o + k : Nat) : Int)))) (some (m.drop k)) := by
  have hb : bytesFrom l (o + k) = m.drop k := by
    unfold bytesFrom at hm ⊢
    rw [← List.drop_drop, toBytes_drop (by rw [hm]; exact hk), hm]
  refine ⟨b, o + k, l, rfl, h, ?_, hb⟩
  have := toBytes_length_le (l.drop o)
  rw [show toBytes (l.drop o) = m from hm] at this
  simp at this
  omega

theorem wp_strchr (env : Env) (fuel d : Nat) {b : Blk} {o : Nat} {l : List Val} {s : Sched} {st : St} {m : Bytes} {ch : Nat} {r : Option Nat}
    {Q : Val → St → Prop} (h : cont globs st.mem b = some l) (hm : bytesFrom l o = m) (hr : strchr m (UInt8.ofNat ch) = .ok r)
    (hq : Q (match r with | none => .ptr none | some k => .ptr (some (b, ((o + k : Nat) : Int)))) st) :
    WP ((cx env fuel d).call "strchr" [.ptr (some (b, (o : Int))), .int ch]) s st Q := by
  rw [cx_lib _ _ _ rfl]
  refine ⟨_, _, ?_, hq⟩
  show (do
      let a ← bytesAt (lctx env) (.ptr (some (b, (o : Int))))
      let r ← X.res (strchr a (UInt8.ofNat (ch : Int).toNat))
      match r, Val.ptr (some (b, (o : Int))) with
      | some k, .ptr (some (blk, o)) => pure (.ptr (some (blk, o + k)))
      | _, _ => pure (.ptr none) : X Val) s st = _
  have e1 : bytesAt (lctx env) (.ptr (some (b, (o : Int)))) s st = .ok (m, st) := by
    simp only [bytesAt, X.bind_apply, obj_cont (c := lctx env) h]
    rw [if_neg (by omega), X.pure_apply, ← hm]
    rfl
  simp only [X.bind_apply, e1, Int.toNat_natCast, hr, X.res_ok]
  cases r <;> simp [X.pure_apply]

theorem strchr_lt {m : Bytes} {c : UInt8} {k : Nat} (h : strchr m c = .ok (some k)) : k < m.length := by
  induction m generalizing k with
  | nil => simp [strchr] at h
  | cons a t ih =>
    unfold strchr at h
    split at h
    · cases h; simp
    · split at h
      · cases h
      · cases h1 : strchr t c with
        | error e => simp [h1, bind, Except.bind] at h
        | ok r =>
          cases r with
          | none => simp [h1, bind, Except.bind] at h
          | some j =>
            have := ih h1
            simp [h1, bind, Except.bind] at h
            simp
            omega

theorem b64Count_le (url : Bool) (t : Bytes) : b64Count url t ≤ t.length := by
  induction t with
  | nil => simp [b64Count]
  | cons c t ih =>
    rw [b64Count, List.length_cons]
    split <;> omega

/-- What `base64Decode` does to the allocator. -/
theorem b64_ok {m : Bytes} {n : Nat} {s : Sched} {h h' : Heap} {o : BufOut} (hr : base64Decode true (some m) n false false s h = .ok (o, h')) :
    n ≤ m.length ∧ h.tick ≤ h'.tick ∧ (∀ b, o.out.getD none = some b → h.tick ≤ b.id ∧ b.id < h'.tick ∧ b.mem.length ≤ n + 16) ∧
    o.len.getD 0 ≤ n + 16 ∧ (o.rc = L8W8JWT_SUCCESS ∨ o.rc = L8W8JWT_INVALID_ARG ∨ o.rc = L8W8JWT_OUT_OF_MEM) := by
  by_cases h0 : n = 0
  · subst h0
    simp only [base64Decode, Bool.or_self] at hr
    cases hr
    exact ⟨by omega, by omega, by simp, by simp, by simp⟩
  have hm : n ≤ m.length := by
    apply Classical.byContradiction
    intro hc
    simp only [base64Decode, Bool.or_self] at hr
    rw [if_neg (by simp), if_neg h0] at hr
    obtain ⟨x, hx, -⟩ := M.liftBind_inv hr
    rw [rd, List.getElem?_eq_none (by omega)] at hx
    cases hx
  refine ⟨hm, ?_⟩
  simp only [base64Decode, Bool.or_self] at hr
  rw [if_neg (by simp), if_neg h0] at hr
  obtain ⟨x, hx, hr⟩ := M.liftBind_inv hr
  obtain ⟨t, ht, hr⟩ := M.liftBind_inv hr
  have htl : t.length ≤ n := by
    unfold rdN at ht
    by_cases hx0 : x = 0
    · rw [if_pos hx0] at ht
      split at ht
      · cases ht; simp; omega
      · cases ht
    · rw [if_neg hx0, if_pos hm] at ht
      cases ht
      simp
      omega
  have hcl := b64Count_le true t
  split at hr
  · cases hr
    exact ⟨by omega, by simp, by simp, by simp⟩
  obtain ⟨p, h1, ha, hr⟩ := M.bind_inv hr
  obtain ⟨hk, hb⟩ := alloc_inv ha
  cases p with
  | none =>
    cases hr
    exact ⟨by omega, by simp, by simp, by simp⟩
  | some b =>
    obtain ⟨rfl, hb⟩ := hb _ rfl
    simp only at hr
    cases hloop : b64DecLoop true (t ++ List.replicate (if b64Count true t % 4 = 3 then 1 else b64Count true t % 4) 61) [] 0 with
    | none =>
      rw [hloop] at hr
      obtain ⟨⟨⟩, h2, hf, hr⟩ := M.bind_inv hr
      cases hr
      have := (free_ok hf).2.1
      exact ⟨by omega, by simp, by simp, by simp⟩
    | some w =>
      obtain ⟨w, k⟩ := w
      rw [hloop] at hr
      simp only at hr
      split at hr
      · cases hr
      · rename_i hw
        cases hr
        refine ⟨by omega, ?_, ?_, by simp⟩
        · intro b hb
          cases hb
          refine ⟨Nat.le_refl _, by rw [hk]; exact Nat.lt_succ_self _, ?_⟩
          simp [padTo]
          omega
        · simp
          omega

/-- Memory after one segment was decoded into the variables number `i` and `i + 1`. -/
def segMem (mem : Blk → Option (List Val)) (i : Nat) (p : Ptr) (n : Nat) : Blk → Option (List Val) :=
  upd (upd (amem mem p) (.stack i) (some [ptrVal p])) (.stack (i + 1)) (some [.int n])

theorem bufMem_seg {st : St} {i : Nat} (h1 : st.mem (.stack i) = some [.ptr none]) (h2 : st.mem (.stack (i + 1)) = some [.int 0]) (o : BufOut) :
    bufMem st.mem (.ptr (some (.stack i, 0))) (.ptr (some (.stack (i + 1), 0))) 0 o = segMem st.mem i (o.out.getD none) (o.len.getD 0) := by
  obtain ⟨rc, out, len⟩ := o
  have key : ∀ (m : Blk → Option (List Val)), m (.stack (i + 1)) = some [.int 0] →
      wr m (.ptr (some (.stack (i + 1), 0))) (len.toList.map fun (k : Nat) => Val.int k) = upd m (.stack (i + 1)) (some [.int ((len.getD 0 : Nat) : Int)]) := by
    intro m hm
    cases len with
    | none =>
      show wr m (.ptr (some (.stack (i + 1), 0))) [] = _
      rw [wr_nil]
      exact (upd_self hm).symm
    | some k => exact wr_some hm 0 _
  unfold bufMem segMem
  cases out with
  | none =>
    simp only [Option.getD_none, amem]
    rw [key _ h2, upd_self (l := some [ptrVal none]) h1]
  | some p =>
    have e := wr_some h1 0 [ptrVal p]
    have e : wr st.mem (.ptr (some (.stack i, 0))) [ptrVal p] = upd st.mem (.stack i) (some [ptrVal p]) := e
    simp only [e, Option.getD_some]
    cases p with
    | none =>
      rw [key]
      · rfl
      · show upd _ _ _ _ = _
        rw [upd_ne _ _ (by simp)]; exact h2
    | some b =>
      have : newBlk (upd st.mem (.stack i) (some [ptrVal (some b)])) (some b) 0 = upd (amem st.mem (some b)) (.stack i) (some [ptrVal (some b)]) := by
        simp only [newBlk, amem, Nat.zero_sub, List.replicate_zero, List.append_nil]
        exact upd_comm _ _ _ (by simp)
      rw [this, key]
      rw [upd_ne _ _ (by simp)]
      simp only [amem]
      rw [upd_ne _ _ (by simp)]
      exact h2

theorem Wf.seg {st : St} (hw : Wf st) {i : Nat} (h1 : st.mem (.stack i) = some [.ptr none]) (h2 : st.mem (.stack (i + 1)) = some [.int 0])
    {p : Ptr} {n : Nat} {h' : Heap} (ht : st.heap.tick ≤ h'.tick) (hp : ∀ b, p = some b → st.heap.tick ≤ b.id ∧ b.id < h'.tick) :
    Wf { st with heap := h', mem := segMem st.mem i p n } where
  stack j hj := by
    have hj : st.stk ≤ j := hj
    have n1 : j ≠ i := by rintro rfl; rw [hw.stack _ hj] at h1; cases h1
    have n2 : j ≠ i + 1 := by rintro rfl; rw [hw.stack _ hj] at h2; cases h2
    simp only [segMem]
    rw [upd_ne _ _ (by simpa using n2), upd_ne _ _ (by simpa using n1), amem_ne (by simp)]
    exact hw.stack _ hj
  heap j hj := by
    have hj : h'.tick ≤ j := hj
    simp only [segMem]
    rw [upd_ne _ _ (by simp), upd_ne _ _ (by simp), amem_ne]
    · exact hw.heap _ (by omega)
    · intro b hb e
      cases e
      have := hp b hb
      omega

/-- One segment. -/
theorem wp_seg (env : Env) (fuel d : Nat) {s : Sched} {st : St} (hw : Wf st) {i : Nat} {q : Val} {m : Bytes} {n : Nat} {o : BufOut} {h' : Heap}
    {Q : Val → St → Prop} (h1 : st.mem (.stack i) = some [.ptr none]) (h2 : st.mem (.stack (i + 1)) = some [.int 0])
    (hp : Pts globs st.mem q (some m)) (hs : q.blk ≠ some (.stack i)) (hm : m.length + 66 < fuel) (hm2 : m.length + 2 < 18446744073709551616)
    (hr : base64Decode true (some m) n false false s st.heap = .ok (o, h'))
    (hq : Q (.int o.rc) { st with heap := h', mem := segMem st.mem i (o.out.getD none) (o.len.getD 0) }) :
    WP ((cx env fuel (d + 2)).call "l8w8jwt_base64_decode"
      [.int 1, q, .int n, .ptr (some (.stack i, 0)), .ptr (some (.stack (i + 1), 0))]) s st Q := by
  have hb := b64_ok hr
  rw [cx_fun _ _ _ (fn := l8w8jwt_base64_decode) rfl]
  refine (wp_of_eq (base64_decode_text env fuel d s st hw 1 q _ _ (some m) n false false hp ?_ ?_ ?_ ?_ (by omega) o h' hr (by omega))).mpr ?_
  · exact ⟨0, .stack i, 0, _, rfl, rfl, h1, rfl⟩
  · exact ⟨0, .stack (i + 1), 0, _, rfl, rfl, h2, rfl⟩
  · exact Or.inr (Or.inr hs)
  · exact Or.inr (Or.inr (by simp [Val.blk]))
  · rw [bufMem_seg h1 h2]
    exact hq

/-- Memory after the three segments were decoded into the variables number `i` to `i + 5`. -/
def segsMem (mem : Blk → Option (List Val)) (i : Nat) (r : Segs) : Blk → Option (List Val) :=
  segMem (segMem (segMem mem i r.header r.headerLength) (i + 2) r.payload r.payloadLength) (i + 4) r.signature r.signatureLength

theorem segMem_null {mem : Blk → Option (List Val)} {i : Nat} (h1 : mem (.stack i) = some [.ptr none])
    (h2 : mem (.stack (i + 1)) = some [.int 0]) : segMem mem i none 0 = mem := by
  unfold segMem
  simp only [amem, ptrVal]
  rw [upd_self h1]
  exact upd_self h2

theorem segMem_stack {mem : Blk → Option (List Val)} {i j n : Nat} {p : Ptr} (h : j ≠ i) (h1 : j ≠ i + 1) : segMem mem i p n (.stack j) = mem (.stack j) := by
  unfold segMem
  rw [upd_ne _ _ (by simpa using h1), upd_ne _ _ (by simpa using h), amem_ne (by simp)]

theorem segMem_other {mem : Blk → Option (List Val)} {i n : Nat} {p : Ptr} {b : Blk} (h : b ≠ .stack i) (h1 : b ≠ .stack (i + 1))
    (hp : ∀ x, p = some x → b ≠ .heap x.id) : segMem mem i p n b = mem b := by
  unfold segMem
  rw [upd_ne _ _ h1, upd_ne _ _ h, amem_ne hp]

/-! ## struct l8w8jwt_decoding_params -/

theorem asTy_u64 (cs : Bool) {x : Nat} (h : x < 18446744073709551616) : asTy cs (.int .u64) (.int x) = .ok (.int x) := by
  simp only [asTy]
  rw [wrapr_u64 _ (by omega) (by omega)]

theorem asTy_i32 (cs : Bool) {x : Int} (h : -2147483648 ≤ x) (h' : x < 2147483648) : asTy cs (.int .i32) (.int x) = .ok (.int x) := by
  simp only [asTy]
  rw [wrapr_i32 _ (by omega) (by omega)]

/-- A pointer that is read from memory: the zeros written by `memset` are NULL. -/
def nul : Val → Val
  | .int 0 => .ptr none
  | v => v

theorem nul_blk (v : Val) : (nul v).blk = v.blk := by
  unfold nul
  split <;> rfl

theorem asTy_nul {g : String → Option (List Val)} {mem : Blk → Option (List Val)} {v : Val} {m : Option Bytes} (cs : Bool)
    (h : Pts g mem (nul v) m) : asTy cs .ptr v = .ok (nul v) := by
  unfold nul at h ⊢
  split
  · rfl
  · rename_i hv
    split at h
    · exact absurd rfl hv
    · exact asTy_pts cs h

theorem nul_some {g : String → Option (List Val)} {mem : Blk → Option (List Val)} {v : Val} {m : Bytes}
    (h : Pts g mem (nul v) (some m)) : nul v = v := by
  unfold nul at h ⊢
  split
  · obtain ⟨b, o, c, h, -⟩ := h
    cases h
  · rfl

/-- The members of the structure that are pointers or flags. -/
structure DecPtrs where
  jwt : Val
  iss : Val
  sub : Val
  aud : Val
  jti : Val
  key : Val
  typ : Val
  exp : Int
  nbf : Int
  iat : Int

/-- The members of `struct l8w8jwt_decoding_params`. -/
def decCells (q : DecParams) (w : DecPtrs) : List Val :=
  [w.jwt, .int q.jwtLength, .int q.alg, w.iss, .int q.validateIssLength, w.sub, .int q.validateSubLength, w.aud, .int q.validateAudLength,
   w.jti, .int q.validateJtiLength, .int w.exp, .int w.nbf, .int w.iat, .int q.expTolerance.toNat, .int q.nbfTolerance.toNat,
   .int q.iatTolerance.toNat, w.key, .int q.verificationKeyLength, w.typ, .int q.validateTypLength]

/-- The object `P` holds the parameters `q`. -/
structure DecAt (mem : Blk → Option (List Val)) (P : Blk) (q : DecParams) (w : DecPtrs) : Prop where
  own : P.own = true
  cells : mem P = some (decCells q w)
  jwt : Pts globs mem (nul w.jwt) q.jwt
  iss : Pts globs mem (nul w.iss) q.validateIss
  sub : Pts globs mem (nul w.sub) q.validateSub
  aud : Pts globs mem (nul w.aud) q.validateAud
  jti : Pts globs mem (nul w.jti) q.validateJti
  key : Pts globs mem (nul w.key) q.verificationKey
  typ : Pts globs mem (nul w.typ) q.validateTyp
  alg : -2147483648 ≤ q.alg ∧ q.alg < 2147483648
  jwtLength : q.jwtLength < 18446744073709551616
  issLength : q.validateIssLength < 18446744073709551616
  subLength : q.validateSubLength < 18446744073709551616
  audLength : q.validateAudLength < 18446744073709551616
  jtiLength : q.validateJtiLength < 18446744073709551616
  keyLength : q.verificationKeyLength < 18446744073709551616
  typLength : q.validateTypLength < 18446744073709551616
  exp : (-2147483648 ≤ w.exp ∧ w.exp < 2147483648) ∧ q.validateExp = decide (w.exp ≠ 0)
  nbf : (-2147483648 ≤ w.nbf ∧ w.nbf < 2147483648) ∧ q.validateNbf = decide (w.nbf ≠ 0)
  iat : (-2147483648 ≤ w.iat ∧ w.iat < 2147483648) ∧ q.validateIat = decide (w.iat ≠ 0)

/-- The objects the parameters consist of. -/
def Uses (P : Blk) (w : DecPtrs) (b : Blk) : Prop :=
  b = P ∨ w.jwt.blk = some b ∨ w.iss.blk = some b ∨ w.sub.blk = some b ∨ w.aud.blk = some b ∨ w.jti.blk = some b ∨ w.key.blk = some b ∨
    w.typ.blk = some b

theorem DecAt.frame {mem mem' : Blk → Option (List Val)} {P : Blk} {q : DecParams} {w : DecPtrs} (h : DecAt mem P q w)
    (hf : ∀ b, Uses P w b → mem' b = mem b) : DecAt mem' P q w :=
  { h with
    cells := (hf P (Or.inl rfl)).trans h.cells
    jwt := h.jwt.frame fun b hb => hf b (by rw [nul_blk] at hb; simp [Uses, hb])
    iss := h.iss.frame fun b hb => hf b (by rw [nul_blk] at hb; simp [Uses, hb])
    sub := h.sub.frame fun b hb => hf b (by rw [nul_blk] at hb; simp [Uses, hb])
    aud := h.aud.frame fun b hb => hf b (by rw [nul_blk] at hb; simp [Uses, hb])
    jti := h.jti.frame fun b hb => hf b (by rw [nul_blk] at hb; simp [Uses, hb])
    key := h.key.frame fun b hb => hf b (by rw [nul_blk] at hb; simp [Uses, hb])
    typ := h.typ.frame fun b hb => hf b (by rw [nul_blk] at hb; simp [Uses, hb]) }

theorem Pts.known {mem : Blk → Option (List Val)} {v : Val} {m : Option Bytes} (h : Pts globs mem v m) {b : Blk} (hb : v.blk = some b) :
    ∃ l, cont globs mem b = some l := by
  cases m with
  | none => cases h; simp [Val.blk] at hb
  | some m =>
    obtain ⟨b', o, l, rfl, hl, -⟩ := h
    simp [Val.blk] at hb
    subst hb
    exact ⟨l, hl⟩

theorem DecAt.known {mem : Blk → Option (List Val)} {P : Blk} {q : DecParams} {w : DecPtrs} (h : DecAt mem P q w) {b : Blk}
    (hb : Uses P w b) : ∃ l, cont globs mem b = some l := by
  rcases hb with rfl | hb | hb | hb | hb | hb | hb | hb
  · exact ⟨_, by rw [cont_own h.own, h.cells]⟩
  · exact h.jwt.known (by rwa [nul_blk])
  · exact h.iss.known (by rwa [nul_blk])
  · exact h.sub.known (by rwa [nul_blk])
  · exact h.aud.known (by rwa [nul_blk])
  · exact h.jti.known (by rwa [nul_blk])
  · exact h.key.known (by rwa [nul_blk])
  · exact h.typ.known (by rwa [nul_blk])

/-- Objects that exist are not the next ones. -/
theorem Wf.old {st : St} (hw : Wf st) {b : Blk} {l : List Val} (h : cont globs st.mem b = some l) :
    (∀ j, st.stk ≤ j → b ≠ .stack j) ∧ (∀ j, st.heap.tick ≤ j → b ≠ .heap j) := by
  constructor
  · rintro j hj rfl
    simp [cont, hw.stack j hj] at h
  · rintro j hj rfl
    simp [cont, hw.heap j hj] at h

/-- Read a member of a structure. -/
theorem wp_ld {c : Ctx} {s : Sched} {st : St} {b : Blk} {l : List Val} {k : Int} {t : STy} {v w : Val} {Q : Val → St → Prop}
    (h : cont c.glob st.mem b = some l) (h0 : 0 ≤ k) (hv : l[k.toNat]? = some v) (hw : asTy c.cs t v = .ok w) (hq : Q w st) :
    WP (paddV c (.ptr (some (b, 0))) k) s st (fun x st1 => WP (loadV c t x) s st1 Q) := by
  have hk : k.toNat < l.length := by
    rcases Nat.lt_or_ge k.toNat l.length with h | h
    · exact h
    · rw [List.getElem?_eq_none h] at hv; cases hv
  refine wp_paddV h (by omega) (by omega) ?_
  exact wp_loadV h (by omega) (by simpa using hv) hw hq

theorem segs2 {mem : Blk → Option (List Val)} {i : Nat} (s4 : mem (.stack (i + 4)) = some [.ptr none])
    (s5 : mem (.stack (i + 5)) = some [.int 0]) {rc : Nat} {p p' : Ptr} {n n' : Nat} :
    segsMem mem i ⟨rc, p, n, p', n', none, 0⟩ = segMem (segMem mem i p n) (i + 2) p' n' := by
  unfold segsMem
  rw [segMem_null]
  · rw [segMem_stack (by omega) (by omega), segMem_stack (by omega) (by omega)]; exact s4
  · rw [segMem_stack (by omega) (by omega), segMem_stack (by omega) (by omega)]; exact s5

theorem segs1 {mem : Blk → Option (List Val)} {i : Nat} (s2 : mem (.stack (i + 2)) = some [.ptr none])
    (s3 : mem (.stack (i + 3)) = some [.int 0]) {p : Ptr} {n : Nat} :
    segMem (segMem mem i p n) (i + 2) none 0 = segMem mem i p n := by
  rw [segMem_null]
  · rw [segMem_stack (by omega) (by omega)]; exact s2
  · rw [segMem_stack (by omega) (by omega)]; exact s3

theorem cont_congr {g : String → Option (List Val)} {m m' : Blk → Option (List Val)} {b : Blk} (h : m' b = m b) : cont g m' b = cont g m b := by
  cases b <;> simp_all [cont]

theorem cast_diff {a b : Nat} : ((a : Int) - b) % 18446744073709551616 = (ptrDiff a b : Int) := by
  unfold ptrDiff
  omega

/-- The text of `l8w8jwt_decode_segments` does what the model says. -/
theorem wp_decode_segments (env : Env) (fuel d : Nat) {s : Sched} {st : St} (hw : Wf st) {P : Blk} {q : DecParams} {w : DecPtrs}
    (hd : DecAt st.mem P q w) {i : Nat} (hu : ∀ b, Uses P w b → ∀ j, i ≤ j → b ≠ .stack j)
    (s0 : st.mem (.stack i) = some [.ptr none]) (s1 : st.mem (.stack (i + 1)) = some [.int 0])
    (s2 : st.mem (.stack (i + 2)) = some [.ptr none]) (s3 : st.mem (.stack (i + 3)) = some [.int 0])
    (s4 : st.mem (.stack (i + 4)) = some [.ptr none]) (s5 : st.mem (.stack (i + 5)) = some [.int 0])
    (hl : ∀ m, q.jwt = some m → m.length + 66 < fuel ∧ m.length + 2 < 9223372036854775808)
    {r : Segs} {h' : Heap} (hr : decodeSegments q s st.heap = .ok (r, h')) {Q : Val → St → Prop}
    (hq : Q (.int r.rc) { st with heap := h', mem := segsMem st.mem i r }) :
    WP (runFun (cx env fuel (d + 2)) l8w8jwt_decode_segments [.ptr (some (P, 0)), .ptr (some (.stack i, 0)), .ptr (some (.stack (i + 1), 0)),
      .ptr (some (.stack (i + 2), 0)), .ptr (some (.stack (i + 3), 0)), .ptr (some (.stack (i + 4), 0)), .ptr (some (.stack (i + 5), 0))]) s st Q := by
  unfold decodeSegments at hr
  obtain ⟨m, hm, hr⟩ := M.liftBind_inv hr
  have hjwt : q.jwt = some m := by
    cases hj : q.jwt with
    | none => rw [hj] at hm; cases hm
    | some x => rw [hj] at hm; cases hm; rfl
  obtain ⟨hfl, hml⟩ := hl m hjwt
  have hpj := hd.jwt
  rw [hjwt] at hpj
  rw [nul_some hpj] at hpj
  obtain ⟨B, o, l, hj, hB, ho, hbm⟩ := hpj
  have hBu : Uses P w B := by simp [Uses, hj, Val.blk]
  have hBs : ∀ j, i ≤ j → B ≠ .stack j := hu B hBu
  have hBh := (hw.old hB).2
  have hPc : cont globs st.mem P = some (decCells q w) := by rw [cont_own hd.own, hd.cells]
  have hPs : ∀ j, i ≤ j → P ≠ .stack j := hu P (Or.inl rfl)
  have hPh := (hw.old hPc).2
  apply wp_runFun
  simp only [l8w8jwt_decode_segments, Nat.reduceSub, List.replicate, List.cons_append, List.nil_append]
  xs []
  refine wp_ld (c := cx env fuel (d + 2)) hPc (by omega) (by rfl) (asTy_i32 _ hd.alg.1 hd.alg.2) ?_
  xs []
  refine wp_loadV hPc (by omega) (by rfl) (by rw [hj]; rfl) ?_
  xs []
  refine wp_loadV hPc (by omega) (by rfl) (by rw [hj]; rfl) ?_
  xs []
  obtain ⟨n1, hn1, hr⟩ := M.liftBind_inv hr
  refine wp_strchr (ch := 46) env fuel (d + 2) hB hbm hn1 ?_
  cases n1 with
  | none =>
    cases hr
    rw [segs2 s4 s5, segs1 s2 s3, segMem_null s0 s1] at hq
    xs []
    rw [dropStack_wf hw]
    exact hq
  | some d1 =>
  have hd1 := strchr_lt hn1
  simp only at hr
  obtain ⟨b1, g1, hb1, hr⟩ := M.bind_inv hr
  have b1k := b64_ok hb1
  xs []
  have e1 : (((o + d1 : Nat) : Int) - (o : Int)) / 1 = (d1 : Int) := by omega
  rw [e1]
  refine wp_seg env fuel d (i := i) (m := m) (by exact ⟨hw.stack, hw.heap⟩) (by exact s0) (by exact s1) (by exact ⟨B, o, l, rfl, hB, ho, hbm⟩)
    (by simp [Val.blk]; exact hBs i (Nat.le_refl _)) hfl (by omega) (by exact hb1) ?_
  have W1 := hw.seg s0 s1 (n := b1.len.getD 0) b1k.2.1 (fun b hb => ⟨(b1k.2.2.1 b hb).1, (b1k.2.2.1 b hb).2.1⟩)
  have D1 := dropStack_wf W1
  simp only at D1
  by_cases hrc1 : b1.rc = 0
  case neg =>
    rw [if_pos hrc1] at hr
    cases hr
    rw [segs2 s4 s5, segs1 s2 s3] at hq
    rcases b1k.2.2.2.2 with h | h | h
    · exact absurd h hrc1
    · rw [h] at hq ⊢
      xs [L8W8JWT_INVALID_ARG]
      rw [D1]
      exact hq
    · rw [h] at hq ⊢
      xs [L8W8JWT_OUT_OF_MEM]
      rw [D1]
      exact hq
  rw [if_neg (by simpa using hrc1)] at hr
  obtain ⟨n2, hn2, hr⟩ := M.liftBind_inv hr
  have hol : o + m.length ≤ l.length := by
    have := toBytes_length_le (l.drop o)
    rw [show toBytes (l.drop o) = m from hbm] at this
    simp at this
    omega
  obtain ⟨M1, hM1⟩ : ∃ M, M = segMem st.mem i (b1.out.getD none) (b1.len.getD 0) := ⟨_, rfl⟩
  have c1 : ∀ b, Uses P w b → cont globs M1 b = cont globs st.mem b := by
    intro b hb
    obtain ⟨lb, hlb⟩ := hd.known hb
    apply cont_congr
    rw [hM1]
    exact segMem_other (hu b hb _ (by omega)) (hu b hb _ (by omega)) (fun x hx => (hw.old hlb).2 _ (b1k.2.2.1 x hx).1)
  have hB1 : cont globs M1 B = some l := by rw [c1 B hBu, hB]
  have hP1 : cont globs M1 P = some (decCells q w) := by rw [c1 P (Or.inl rfl), hPc]
  have t2 : M1 (.stack (i + 2)) = some [.ptr none] := by rw [hM1, segMem_stack (by omega) (by omega)]; exact s2
  have t3 : M1 (.stack (i + 2 + 1)) = some [.int 0] := by rw [hM1, segMem_stack (by omega) (by omega)]; exact s3
  rw [← hM1] at W1 D1 ⊢
  xs [hrc1]
  refine wp_paddV hB1 (by omega) (by omega) ?_
  have e2 : ((o + d1 : Nat) : Int) + 1 = ((o + (d1 + 1) : Nat) : Int) := by omega
  rw [e2]
  have hbm1 := bytes_drop (k := d1 + 1) hbm (by omega)
  xs []
  refine wp_strchr (ch := 46) env fuel (d + 2) hB1 hbm1 hn2 ?_
  have hdl : (m.drop (d1 + 1)).length = m.length - (d1 + 1) := by simp
  cases n2 with
  | none =>
    by_cases halg : q.alg = -1
    case neg =>
      rw [if_pos ⟨rfl, halg⟩] at hr
      cases hr
      rw [segs2 s4 s5, segs1 s2 s3, ← hM1] at hq
      xs [halg]
      rw [D1]
      exact hq
    rw [if_neg (by simp [halg])] at hr
    simp only at hr
    obtain ⟨b2, g2, hb2, hr⟩ := M.bind_inv hr
    have b2k := b64_ok hb2
    have hlen := b2k.1
    have hpd : ptrDiff q.jwtLength (d1 + 1) = q.jwtLength - (d1 + 1) ∧ d1 + 1 ≤ q.jwtLength ∧ q.jwtLength ≤ m.length := by
      have := hd.jwtLength
      unfold ptrDiff at hlen ⊢
      omega
    xs [halg]
    refine wp_loadV hP1 (by omega) (by rfl) (by rw [hj]; rfl) ?_
    xs []
    refine wp_ld (c := cx env fuel (d + 2)) hP1 (by omega) (by rfl) (asTy_u64 _ hd.jwtLength) ?_
    xs []
    refine wp_paddV hB1 (by omega) (by omega) ?_
    xs []
    have e3 : ((o : Int) + (q.jwtLength : Int) - ((o + (d1 + 1) : Nat) : Int)) / 1 = (ptrDiff q.jwtLength (d1 + 1) : Int) := by
      rw [hpd.1]; omega
    rw [e3]
    xs []
    refine wp_seg env fuel d (i := i + 2) (m := m.drop (d1 + 1)) (by exact ⟨W1.stack, W1.heap⟩) (by exact t2) (by exact t3)
      (by exact pts_drop hB1 hbm ho (by omega)) (by simp [Val.blk]; exact hBs (i + 2) (by omega)) (by omega) (by omega) (by exact hb2) ?_
    have W2 := W1.seg t2 t3 (n := b2.len.getD 0) b2k.2.1 (fun b hb => ⟨(b2k.2.2.1 b hb).1, (b2k.2.2.1 b hb).2.1⟩)
    have D2 := dropStack_wf W2
    simp only at D2
    by_cases hrc2 : b2.rc = 0
    case neg =>
      rw [if_pos hrc2] at hr
      cases hr
      rw [segs2 s4 s5, ← hM1] at hq
      rcases b2k.2.2.2.2 with h | h | h
      · exact absurd h hrc2
      · rw [h] at hq ⊢
        xs [L8W8JWT_INVALID_ARG]
        rw [D2]
        exact hq
      · rw [h] at hq ⊢
        xs [L8W8JWT_OUT_OF_MEM]
        rw [D2]
        exact hq
    rw [if_neg (by simpa using hrc2)] at hr
    cases hr
    rw [segs2 s4 s5, ← hM1] at hq
    xs [hrc2]
    rw [D2]
    exact hq
  | some k =>
    rw [if_neg (by simp)] at hr
    have hk := strchr_lt hn2
    simp only at hr
    obtain ⟨b2, g2, hb2, hr⟩ := M.bind_inv hr
    have b2k := b64_ok hb2
    xs []
    have e3 : (((o + (d1 + 1) + k : Nat) : Int) - ((o + (d1 + 1) : Nat) : Int)) / 1 = (k : Int) := by omega
    rw [e3]
    xs []
    refine wp_seg env fuel d (i := i + 2) (m := m.drop (d1 + 1)) (by exact ⟨W1.stack, W1.heap⟩) (by exact t2) (by exact t3)
      (by exact pts_drop hB1 hbm ho (by omega)) (by simp [Val.blk]; exact hBs (i + 2) (by omega)) (by omega) (by omega) (by exact hb2) ?_
    have W2 := W1.seg t2 t3 (n := b2.len.getD 0) b2k.2.1 (fun b hb => ⟨(b2k.2.2.1 b hb).1, (b2k.2.2.1 b hb).2.1⟩)
    have D2 := dropStack_wf W2
    simp only at D2
    by_cases hrc2 : b2.rc = 0
    case neg =>
      rw [if_pos hrc2] at hr
      cases hr
      rw [segs2 s4 s5, ← hM1] at hq
      rcases b2k.2.2.2.2 with h | h | h
      · exact absurd h hrc2
      · rw [h] at hq ⊢
        xs [L8W8JWT_INVALID_ARG]
        rw [D2]
        exact hq
      · rw [h] at hq ⊢
        xs [L8W8JWT_OUT_OF_MEM]
        rw [D2]
        exact hq
    rw [if_neg (by simpa using hrc2)] at hr
    obtain ⟨b3, g3, hb3, hr⟩ := M.bind_inv hr
    have b3k := b64_ok hb3
    have hlen := b3k.1
    have hd2l : (m.drop (d1 + 1 + k + 1)).length = m.length - (d1 + 1 + k + 1) := by simp
    have hpd : ptrDiff q.jwtLength (d1 + 1 + k + 1) = q.jwtLength - (d1 + 1 + k + 1) ∧ d1 + 1 + k + 1 ≤ q.jwtLength ∧ q.jwtLength ≤ m.length := by
      have := hd.jwtLength
      unfold ptrDiff at hlen ⊢
      omega
    obtain ⟨M2, hM2⟩ : ∃ M, M = segMem M1 (i + 2) (b2.out.getD none) (b2.len.getD 0) := ⟨_, rfl⟩
    have c2 : ∀ b, Uses P w b → cont globs M2 b = cont globs st.mem b := by
      intro b hb
      obtain ⟨lb, hlb⟩ := hd.known hb
      rw [← c1 b hb]
      apply cont_congr
      rw [hM2]
      refine segMem_other (hu b hb _ (by omega)) (hu b hb _ (by omega)) (fun x hx => (hw.old hlb).2 _ ?_)
      have := (b2k.2.2.1 x hx).1
      have := b1k.2.1
      omega
    have hB2 : cont globs M2 B = some l := by rw [c2 B hBu, hB]
    have hP2 : cont globs M2 P = some (decCells q w) := by rw [c2 P (Or.inl rfl), hPc]
    have t4 : M2 (.stack (i + 4)) = some [.ptr none] := by
      rw [hM2, segMem_stack (by omega) (by omega), hM1, segMem_stack (by omega) (by omega)]; exact s4
    have t5 : M2 (.stack (i + 4 + 1)) = some [.int 0] := by
      rw [hM2, segMem_stack (by omega) (by omega), hM1, segMem_stack (by omega) (by omega)]; exact s5
    rw [← hM2] at W2 D2 ⊢
    xs [hrc2]
    refine wp_paddV hB2 (by omega) (by omega) ?_
    have e4 : ((o + (d1 + 1) + k : Nat) : Int) + 1 = ((o + (d1 + 1 + k + 1) : Nat) : Int) := by omega
    rw [e4]
    xs []
    refine wp_loadV hP2 (by omega) (by rfl) (by rw [hj]; rfl) ?_
    xs []
    refine wp_ld (c := cx env fuel (d + 2)) hP2 (by omega) (by rfl) (asTy_u64 _ hd.jwtLength) ?_
    xs []
    refine wp_paddV hB2 (by omega) (by omega) ?_
    xs []
    have e5 : ((o : Int) + (q.jwtLength : Int) - ((o + (d1 + 1 + k + 1) : Nat) : Int)) / 1 = (ptrDiff q.jwtLength (d1 + 1 + k + 1) : Int) := by
      rw [hpd.1]; omega
    rw [e5]
    xs []
    refine wp_seg env fuel d (i := i + 4) (m := m.drop (d1 + 1 + k + 1)) (by exact ⟨W2.stack, W2.heap⟩) (by exact t4) (by exact t5)
      (by exact pts_drop hB2 hbm ho (by omega)) (by simp [Val.blk]; exact hBs (i + 4) (by omega)) (by omega) (by omega) (by exact hb3) ?_
    have W3 := W2.seg t4 t5 (n := b3.len.getD 0) b3k.2.1 (fun b hb => ⟨(b3k.2.2.1 b hb).1, (b3k.2.2.1 b hb).2.1⟩)
    have D3 := dropStack_wf W3
    simp only at D3
    cases hr
    rw [segsMem, ← hM1, ← hM2] at hq
    rcases b3k.2.2.2.2 with h | h | h
    · rw [h] at hq ⊢
      xs [L8W8JWT_SUCCESS]
      rw [D3]
      exact hq
    · rw [h] at hq ⊢
      xs [L8W8JWT_INVALID_ARG]
      rw [D3]
      exact hq
    · rw [h] at hq ⊢
      xs [L8W8JWT_OUT_OF_MEM]
      rw [D3]
      exact hq

/-- A fresh block, or NULL. -/
def New (h h' : Heap) (N : Nat) (p : Ptr) : Prop := ∀ b, p = some b → h.tick ≤ b.id ∧ b.id < h'.tick ∧ b.mem.length ≤ N

/-- What `decodeSegments` does to the allocator. -/
structure SegsOk (h h' : Heap) (N : Nat) (r : Segs) : Prop where
  tick : h.tick ≤ h'.tick
  header : New h h' N r.header
  payload : New h h' N r.payload
  signature : New h h' N r.signature
  hp : ∀ a b, r.header = some a → r.payload = some b → a.id ≠ b.id
  hs : ∀ a b, r.header = some a → r.signature = some b → a.id ≠ b.id
  ps : ∀ a b, r.payload = some a → r.signature = some b → a.id ≠ b.id
  hl : r.headerLength ≤ N
  pl : r.payloadLength ≤ N
  sl : r.signatureLength ≤ N

theorem New.nul {h h' : Heap} {N : Nat} : New h h' N none := fun _ h => by cases h

theorem SegsOk.of {h g1 g2 g3 : Heap} {N : Nat} {p1 p2 p3 : Ptr} {a b c rc : Nat} (t1 : h.tick ≤ g1.tick) (t2 : g1.tick ≤ g2.tick)
    (t3 : g2.tick ≤ g3.tick) (n1 : New h g1 N p1) (n2 : New g1 g2 N p2) (n3 : New g2 g3 N p3) (l1 : a ≤ N) (l2 : b ≤ N) (l3 : c ≤ N) :
    SegsOk h g3 N ⟨rc, p1, a, p2, b, p3, c⟩ where
  tick := by omega
  header x hx := by have := n1 x hx; omega
  payload x hx := by have := n2 x hx; omega
  signature x hx := by have := n3 x hx; omega
  hp x y hx hy := by have := n1 x hx; have := n2 y hy; omega
  hs x y hx hy := by have := n1 x hx; have := n3 y hy; omega
  ps x y hx hy := by have := n2 x hx; have := n3 y hy; omega
  hl := l1
  pl := l2
  sl := l3

theorem New.b64 {m : Bytes} {n N : Nat} {s : Sched} {h h' : Heap} {o : BufOut} (hr : base64Decode true (some m) n false false s h = .ok (o, h'))
    (hm : m.length + 16 ≤ N) : h.tick ≤ h'.tick ∧ New h h' N (o.out.getD none) ∧ o.len.getD 0 ≤ N := by
  have k := b64_ok hr
  refine ⟨k.2.1, ?_, by omega⟩
  intro b hb
  have := k.2.2.1 b hb
  omega

theorem segs_ok {q : DecParams} {m : Bytes} {s : Sched} {h h' : Heap} {r : Segs} (hj : q.jwt = some m) (hr : decodeSegments q s h = .ok (r, h')) :
    SegsOk h h' (m.length + 16) r := by
  unfold decodeSegments at hr
  obtain ⟨m', hm, hr⟩ := M.liftBind_inv hr
  rw [hj] at hm
  cases hm
  obtain ⟨n1, hn1, hr⟩ := M.liftBind_inv hr
  cases n1 with
  | none =>
    cases hr
    exact .of (Nat.le_refl _) (Nat.le_refl _) (Nat.le_refl _) New.nul New.nul New.nul (Nat.zero_le _) (Nat.zero_le _) (Nat.zero_le _)
  | some d1 =>
  simp only at hr
  obtain ⟨b1, g1, hb1, hr⟩ := M.bind_inv hr
  obtain ⟨t1, N1, l1⟩ := New.b64 (N := m.length + 16) hb1 (by omega)
  split at hr
  · cases hr
    exact .of t1 (Nat.le_refl _) (Nat.le_refl _) N1 New.nul New.nul l1 (Nat.zero_le _) (Nat.zero_le _)
  obtain ⟨n2, hn2, hr⟩ := M.liftBind_inv hr
  split at hr
  · cases hr
    exact .of t1 (Nat.le_refl _) (Nat.le_refl _) N1 New.nul New.nul l1 (Nat.zero_le _) (Nat.zero_le _)
  obtain ⟨b2, g2, hb2, hr⟩ := M.bind_inv hr
  obtain ⟨t2, N2, l2⟩ := New.b64 (N := m.length + 16) hb2 (by simp)
  split at hr
  · cases hr
    exact .of t1 t2 (Nat.le_refl _) N1 N2 New.nul l1 l2 (Nat.zero_le _)
  cases n2 with
  | none =>
    cases hr
    exact .of t1 t2 (Nat.le_refl _) N1 N2 New.nul l1 l2 (Nat.zero_le _)
  | some k =>
    simp only at hr
    obtain ⟨b3, g3, hb3, hr⟩ := M.bind_inv hr
    obtain ⟨t3, N3, l3⟩ := New.b64 (N := m.length + 16) hb3 (by simp)
    cases hr
    exact .of t1 t2 t3 N1 N2 N3 l1 l2 l3

end L8w8jwt.C
