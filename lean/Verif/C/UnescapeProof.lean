import Verif.C.ClaimProof
import Verif.Model.Decode
/-!
# The text of src/decode.c:80-163 does what Model/Decode.lean says
-/

namespace L8w8jwt.C

open Src

theorem charVal_mod (cs : Bool) (b : UInt8) : charVal cs b % 256 = (b.toNat : Int) := by
  have := b.toNat_lt
  unfold charVal
  split
  · rename_i h
    simp at h
    omega
  · omega

theorem charVal_ascii (cs : Bool) (b : UInt8) {k : Nat} (hk : k < 128) : charVal cs b = (k : Int) ↔ b.toNat = k := by
  have := b.toNat_lt
  unfold charVal
  split
  · rename_i h
    simp at h
    omega
  · omega

theorem toNat_lit (b : UInt8) {k : Nat} (hk : k < 256) : b.toNat = k ↔ b = UInt8.ofNat k := by
  constructor
  · intro h; rw [← h]; simp
  · rintro rfl; simp; omega

theorem unescape_plain {c : UInt8} {t : Bytes} (h : c ≠ 92 ∨ t = []) : unescapeString (c :: t) = c :: unescapeString t := by
  cases t with
  | nil => simp [unescapeString]
  | cons d t =>
    have hc : c ≠ 92 := by simpa using h
    rw [unescapeString, if_neg hc]

theorem unescape_length (t : Bytes) : (unescapeString t).length ≤ t.length := by
  induction t using unescapeString.induct with
  | case1 => simp [unescapeString]
  | case2 c => simp [unescapeString]
  | case3 d t e hh ih => rw [unescapeString, if_pos rfl, hh]; simp; omega
  | case4 d t hh ih => rw [unescapeString, if_pos rfl, hh]; simp; simpa using ih
  | case5 c d t hc ih => rw [unescapeString, if_neg hc]; simp; simpa using ih

/-- Writing the next character. -/
theorem wp_store_char {c : Ctx} {s : Sched} {st : St} {b : Blk} {l : List Val} {o : Nat} {w : Bytes} {x : UInt8} {p v : Int}
    {Q : Unit → St → Prop} (hb : b.own = true) (h : st.mem b = some (poke l o (cells w)))
    (hp : p = ((o + w.length : Nat) : Int)) (hv : v % 256 = (x.toNat : Int)) (hl : o + w.length < l.length)
    (hq : Q () { st with mem := upd st.mem b (some (poke l o (cells (w ++ [x])))) }) :
    WP (storeV c (.int .char) (.ptr (some (b, p))) (.int v)) s st Q := by
  subst hp
  have hw : o + (cells w).length < l.length := by rw [cells_length]; exact hl
  refine wp_storeV hb h (by omega) (by rw [poke_length (by omega)]; omega) (w := .int x.toNat) (by simp [toCell, hv]) ?_
  rw [Int.toNat_natCast, ← cells_length w, poke_snoc _ hw]
  rw [cells_append] at hq
  exact hq

/-- src/decode.c:80-128: the text of `l8w8jwt_unescape_string`. -/
theorem wp_unescape (env : Env) (fuel d : Nat) {s : Sched} {st : St} {B : Blk} {l : List Val} {o n : Nat} {m : Bytes} {p : Val}
    {Q : Val → St → Prop} (hstk : ∀ j, st.stk ≤ j → st.mem (.stack j) = none) (hB : B.own = true) (hBs : ∀ j, st.stk ≤ j → B ≠ .stack j) (hl : st.mem B = some l)
    (hp : Pts globs st.mem p (some m)) (hne : p.blk ≠ some B) (hn : n ≤ m.length) (hn64 : n < 18446744073709551616) (hf : n < fuel)
    (hroom : o + (unescapeString (m.take n)).length ≤ l.length)
    (hq : Q (.ptr (some (B, ((o + (unescapeString (m.take n)).length : Nat) : Int))))
      { st with mem := upd st.mem B (some (poke l o (cells (unescapeString (m.take n))))) }) :
    WP (runFun (cx env fuel d) l8w8jwt_unescape_string [.ptr (some (B, (o : Int))), p, .int n]) s st Q := by
  obtain ⟨pb, po, pl, rfl, hpl, hpo, rfl⟩ := hp
  generalize hM : (bytesFrom pl po).take n = M at hroom hq
  have hMl : M.length = n := by rw [← hM]; simp; omega
  have hMget : ∀ i, i < n → (bytesFrom pl po)[i]? = M[i]? := by
    intro i hi
    rw [← hM, List.getElem?_take_of_lt hi]
  have hpB : pb ≠ B := fun e => hne (by rw [e]; rfl)
  have hcont : ∀ w, cont globs (upd st.mem B w) pb = some pl := fun w => (cont_upd hpB).trans hpl
  apply wp_runFun
  simp only [l8w8jwt_unescape_string, Nat.reduceSub, List.replicate, List.cons_append, List.nil_append]
  xs []
  unfold l8w8jwt_unescape_string.loop1
  refine wp_loop (fun k st' => ∃ (i : Nat) (w : Bytes) (x : Val), k = n - i ∧ i ≤ n ∧
    w ++ unescapeString (M.drop i) = unescapeString M ∧
    st' = ⟨[.ptr (some (B, ((o + w.length : Nat) : Int))), .ptr (some (pb, po)), .int n, .int i, x], st.heap,
      upd st.mem B (some (poke l o (cells w))), st.stk⟩) n ?_ ?_ hf
  rotate_left
  · refine ⟨0, [], .undef, by simp, by omega, by simp, ?_⟩
    simp only [cells, List.map_nil, poke_nil, List.length_nil, Nat.add_zero]
    congr 1
    funext b
    unfold upd
    split
    · rename_i e; rw [e, hl]
    · rfl
  rintro k st' ⟨i, w, x, rfl, hi, hw, rfl⟩
  by_cases hin : i = n
  · subst hin
    rw [List.drop_of_length_le (by omega)] at hw
    simp only [unescapeString, List.append_nil] at hw
    subst hw
    xs []
    rw [dropStack_none]
    · exact hq
    · intro j hj
      rw [upd_ne _ _ (fun e => hBs j hj e.symm)]
      exact hstk j hj
  have hilt : i < M.length := by omega
  have hget := hMget i (by omega)
  have hdrop := List.drop_eq_getElem_cons hilt
  rw [List.getElem?_eq_getElem hilt] at hget
  generalize M[i] = c at hget hdrop
  have hple : po + i < pl.length := bytesFrom_lt hget
  xi []
  refine wp_paddV (l := pl) (hcont _) (by omega) (by omega) ?_
  refine wp_load_char (l := pl) (hcont _) hget (by omega) ?_
  xi []
  refine WP_mono (Q := fun r st1 => r = .next .run ∧ ∃ (j : Nat) (v : Int) (y : UInt8), i ≤ j ∧ j < n ∧ v % 256 = (y.toNat : Int) ∧
    unescapeString (M.drop i) = y :: unescapeString (M.drop (j + 1)) ∧
    st1 = ⟨[.ptr (some (B, ((o + w.length : Nat) : Int))), .ptr (some (pb, po)), .int n, .int j, .int v], st.heap,
      upd st.mem B (some (poke l o (cells w))), st.stk⟩) ?_ ?_
  · have hcv := charVal_ascii env.charSigned c (k := 92) (by omega)
    rw [toNat_lit _ (by omega)] at hcv
    have hplain : (c ≠ 92 ∨ M.drop (i + 1) = []) → ∃ (j : Nat) (v : Int) (y : UInt8), i ≤ j ∧ j < n ∧ v % 256 = (y.toNat : Int) ∧
        unescapeString (M.drop i) = y :: unescapeString (M.drop (j + 1)) ∧
        (⟨[.ptr (some (B, ((o + w.length : Nat) : Int))), .ptr (some (pb, po)), .int n, .int i, .int (charVal env.charSigned c)], st.heap,
          upd st.mem B (some (poke l o (cells w))), st.stk⟩ : St) =
        ⟨[.ptr (some (B, ((o + w.length : Nat) : Int))), .ptr (some (pb, po)), .int n, .int j, .int v], st.heap,
          upd st.mem B (some (poke l o (cells w))), st.stk⟩ := fun h =>
      ⟨i, _, c, by omega, by omega, charVal_mod _ _, by rw [hdrop, unescape_plain h], rfl⟩
    by_cases hc : c = 92
    · have hcv' : charVal env.charSigned c = 92 := by simpa using hcv.mpr hc
      by_cases hi1 : i + 1 = n
      · xs [cx_cs, hcv']
        rw [← hcv']
        exact hplain (.inr (List.drop_of_length_le (by omega)))
      · have hilt1 : i + 1 < M.length := by omega
        have hget1 := hMget (i + 1) (by omega)
        have hdrop1 := List.drop_eq_getElem_cons hilt1
        rw [List.getElem?_eq_getElem hilt1] at hget1
        generalize M[i + 1] = e at hget1 hdrop1
        have hple1 : po + (i + 1) < pl.length := bytesFrom_lt hget1
        xs [cx_cs, hcv']
        refine wp_paddV (l := pl) (hcont _) (by omega) (by omega) ?_
        refine wp_load_char (l := pl) (hcont _) hget1 (by omega) ?_
        rw [cx_cs]
        have hcase : ∀ k : Nat, k < 128 → (charVal env.charSigned e = (k : Int) ↔ e = UInt8.ofNat k) := by
          intro k hk
          rw [charVal_ascii _ _ hk, toNat_lit _ (by omega)]
        have hesc : ∀ y, unescapeChar e = some y → unescapeString (M.drop i) = y :: unescapeString (M.drop (i + 1 + 1)) := by
          intro y hy
          rw [hdrop, hdrop1, hc, unescapeString, if_pos rfl, hy]
        by_cases h34 : e = 34
        · have hk : charVal env.charSigned e = 34 := by simpa using (hcase 34 (by omega)).mpr h34
          xs [hk, Int.reduceEq]
          exact ⟨i + 1, 34, 34, by omega, by omega, rfl, hesc _ (by rw [h34]; rfl), by xeq⟩
        have hn34 : ¬ charVal env.charSigned e = 34 := fun hk => h34 ((hcase 34 (by omega)).mp (by simpa using hk))
        by_cases h92 : e = 92
        · have hk : charVal env.charSigned e = 92 := by simpa using (hcase 92 (by omega)).mpr h92
          xs [hk, Int.reduceEq]
          exact ⟨i + 1, 92, 92, by omega, by omega, rfl, hesc _ (by rw [h92]; rfl), by xeq⟩
        have hn92 : ¬ charVal env.charSigned e = 92 := fun hk => h92 ((hcase 92 (by omega)).mp (by simpa using hk))
        by_cases h47 : e = 47
        · have hk : charVal env.charSigned e = 47 := by simpa using (hcase 47 (by omega)).mpr h47
          xs [hk, Int.reduceEq]
          exact ⟨i + 1, 47, 47, by omega, by omega, rfl, hesc _ (by rw [h47]; rfl), by xeq⟩
        have hn47 : ¬ charVal env.charSigned e = 47 := fun hk => h47 ((hcase 47 (by omega)).mp (by simpa using hk))
        by_cases h98 : e = 98
        · have hk : charVal env.charSigned e = 98 := by simpa using (hcase 98 (by omega)).mpr h98
          xs [hk, Int.reduceEq]
          exact ⟨i + 1, 8, 8, by omega, by omega, rfl, hesc _ (by rw [h98]; rfl), by xeq⟩
        have hn98 : ¬ charVal env.charSigned e = 98 := fun hk => h98 ((hcase 98 (by omega)).mp (by simpa using hk))
        by_cases h102 : e = 102
        · have hk : charVal env.charSigned e = 102 := by simpa using (hcase 102 (by omega)).mpr h102
          xs [hk, Int.reduceEq]
          exact ⟨i + 1, 12, 12, by omega, by omega, rfl, hesc _ (by rw [h102]; rfl), by xeq⟩
        have hn102 : ¬ charVal env.charSigned e = 102 := fun hk => h102 ((hcase 102 (by omega)).mp (by simpa using hk))
        by_cases h110 : e = 110
        · have hk : charVal env.charSigned e = 110 := by simpa using (hcase 110 (by omega)).mpr h110
          xs [hk, Int.reduceEq]
          exact ⟨i + 1, 10, 10, by omega, by omega, rfl, hesc _ (by rw [h110]; rfl), by xeq⟩
        have hn110 : ¬ charVal env.charSigned e = 110 := fun hk => h110 ((hcase 110 (by omega)).mp (by simpa using hk))
        by_cases h114 : e = 114
        · have hk : charVal env.charSigned e = 114 := by simpa using (hcase 114 (by omega)).mpr h114
          xs [hk, Int.reduceEq]
          exact ⟨i + 1, 13, 13, by omega, by omega, rfl, hesc _ (by rw [h114]; rfl), by xeq⟩
        have hn114 : ¬ charVal env.charSigned e = 114 := fun hk => h114 ((hcase 114 (by omega)).mp (by simpa using hk))
        by_cases h116 : e = 116
        · have hk : charVal env.charSigned e = 116 := by simpa using (hcase 116 (by omega)).mpr h116
          xs [hk, Int.reduceEq]
          exact ⟨i + 1, 9, 9, by omega, by omega, rfl, hesc _ (by rw [h116]; rfl), by xeq⟩
        have hn116 : ¬ charVal env.charSigned e = 116 := fun hk => h116 ((hcase 116 (by omega)).mp (by simpa using hk))
        xs [hn34, hn92, hn47, hn98, hn102, hn110, hn114, hn116]

        rw [← hcv']
        refine ⟨i, _, c, by omega, by omega, charVal_mod _ _, ?_, rfl⟩
        rw [hdrop, hdrop1, hc, unescapeString, if_pos rfl]
        simp only [unescapeChar, h34, h92, h47, h98, h102, h110, h114, h116, if_false]
    · xs [cx_cs]
      have : ¬ charVal env.charSigned c = 92 := by simpa using fun h => hc (hcv.mp h)
      xs [this]
      exact hplain (.inl hc)
  · rintro r st1 ⟨rfl, j, v, y, hij, hjn, hv, hun, rfl⟩
    have hlen : o + w.length + 1 ≤ l.length := by
      rw [← hw, hun] at hroom
      simp at hroom
      omega
    have hpk : (poke l o (cells w)).length = l.length := poke_length (by rw [cells_length]; omega)
    xs []
    refine wp_paddV (l := poke l o (cells w)) ?_ (by omega) (by omega) ?_
    · rw [cont_own hB]; exact upd_same _ _ _
    xs []
    refine wp_store_char (x := y) hB (upd_same _ _ _) rfl hv (by omega) ?_
    rw [upd_upd]
    xs []
    refine ⟨n - (j + 1), by omega, j + 1, w ++ [y], .int v, rfl, by omega, ?_, ?_⟩
    · rw [← hw, hun]
      simp
    · xeq
      simp
      omega

theorem wp_free (env : Env) (fuel d : Nat) {P : Ptr} {s : Sched} {st : St} {h' : Heap} {Q : Val → St → Prop}
    (hf : free P s st.heap = .ok ((), h')) (hq : Q .undef { st with heap := h', mem := fmem st.mem P }) :
    WP ((cx env fuel d).call "free" [ptrVal P]) s st Q := by
  rw [cx_lib _ _ _ rfl]
  show WP (xFree (ptrVal P)) s st Q
  cases P with
  | none => cases hf; exact ⟨_, _, rfl, hq⟩
  | some b =>
    simp only [free] at hf
    split at hf
    · rename_i hm
      cases hf
      exact ⟨_, _, if_pos ⟨hm, rfl⟩, hq⟩
    · cases hf

theorem wp_strncpy (env : Env) (fuel d : Nat) {b : Blk} {l : List Val} {q : Val} {n : Nat} {s : Sched} {st : St} {m w : Bytes} {Q : Val → St → Prop}
    (hb : b.own = true) (hl : st.mem b = some l) (h1 : Pts globs st.mem q (some m)) (hr : strncpy m n = .ok w) (hw : w.length ≤ l.length)
    (hq : ∀ v, Q v { st with mem := upd st.mem b (some (poke l 0 (cells w))) }) :
    WP ((cx env fuel d).call "strncpy" [.ptr (some (b, 0)), q, .int n]) s st Q := by
  obtain ⟨b1, o1, c1, rfl, h1, ho1, hl1⟩ := h1
  rw [cx_lib _ _ _ rfl]
  refine ⟨_, _, ?_, hq (.ptr (some (b, 0)))⟩
  show (do
      let a ← bytesAt (lctx env) (.ptr (some (b1, (o1 : Int))))
      let r ← X.res (strncpy a (n : Int).toNat)
      let _ ← writeCells (lctx env) (.ptr (some (b, 0))) (cells r)
      pure (.ptr (some (b, 0))) : X Val) s st = _
  have e1 : bytesAt (lctx env) (.ptr (some (b1, (o1 : Int)))) s st = .ok (m, st) := by
    simp only [bytesAt, X.bind_apply, obj_cont (c := lctx env) h1]
    rw [if_neg (by omega), X.pure_apply, ← hl1]
    rfl
  simp only [X.bind_apply, e1, Int.toNat_natCast, hr, X.res_ok, writeCells, obj_own (c := lctx env) hb hl]
  rw [if_pos ⟨by omega, by simp [cells_length]; omega⟩, setObj_own hb]
  simp [X.pure_apply, poke]

theorem strncpy_length {m w : Bytes} {n : Nat} (h : strncpy m n = .ok w) : w.length = n := by
  induction m generalizing n w with
  | nil =>
    cases n with
    | zero => cases h; rfl
    | succ n => cases h
  | cons c t ih =>
    cases n with
    | zero => cases h; rfl
    | succ n =>
      unfold strncpy at h
      split at h
      · cases h; simp
      · cases h1 : strncpy t n with
        | error e => simp [h1, bind, Except.bind] at h
        | ok r =>
          simp only [h1, bind, Except.bind, Except.ok.injEq] at h
          subst h
          simp [ih h1]

theorem poke_cells {w : Bytes} {n : Nat} :
    (poke (List.replicate n (Val.int 0)) 0 (cells w)) = cells ((List.replicate n 0).take 0 ++ w ++ (List.replicate n 0).drop (0 + w.length)) := by
  simp [poke, cells]

/-- Memory with the block `p`. -/
def amem (mem : Blk → Option (List Val)) : Ptr → Blk → Option (List Val)
  | none => mem
  | some b => upd mem (.heap b.id) (some (cells b.mem))

theorem amem_ne {mem : Blk → Option (List Val)} {p : Ptr} {x : Blk} (h : ∀ b, p = some b → x ≠ .heap b.id) : amem mem p x = mem x := by
  cases p with
  | none => rfl
  | some b => exact upd_ne _ _ (h b rfl)

theorem amem_upd (mem : Blk → Option (List Val)) {p : Ptr} {x : Blk} (l : Option (List Val)) (h : ∀ b, p = some b → x ≠ .heap b.id) :
    amem (upd mem x l) p = upd (amem mem p) x l := by
  cases p with
  | none => rfl
  | some b => exact upd_comm _ _ _ (h b rfl)

theorem alloc_inv {content : Bytes} {p : Ptr} {s : Sched} {h h' : Heap} (H : alloc content s h = .ok (p, h')) :
    h'.tick = h.tick + 1 ∧ ∀ b, p = some b → b = ⟨h.tick, content⟩ ∧ h'.live = h.tick :: h.live := by
  unfold alloc at H
  split at H
  · cases H
    exact ⟨rfl, by simp⟩
  · cases H
    refine ⟨rfl, ?_⟩
    rintro b hb
    cases hb
    exact ⟨rfl, rfl⟩

theorem wp_callocP (env : Env) (fuel d : Nat) {n : Int} {s : Sched} {st : St} {p : Ptr} {h' : Heap} {Q : Val → St → Prop}
    (hr : alloc (List.replicate n.toNat 0) s st.heap = .ok (p, h')) (hq : Q (ptrVal p) { st with heap := h', mem := amem st.mem p }) :
    WP ((cx env fuel d).call "calloc" [.int 1, .int n]) s st Q := by
  apply wp_calloc
  unfold alloc at hr
  split at hr
  · rename_i hf
    rw [if_pos hf]
    cases hr
    exact hq
  · rename_i hf
    rw [if_neg hf]
    cases hr
    simpa [amem, cells, ptrVal] using hq

theorem upd3_a (m : Blk → Option (List Val)) {a b c : Blk} (x y z w : Option (List Val)) (h1 : b ≠ a) (h2 : c ≠ a) :
    upd (upd (upd (upd m a x) b y) c z) a w = upd (upd (upd m a w) b y) c z := by
  funext t
  simp only [upd]
  by_cases ha : t = a <;> by_cases hb : t = b <;> by_cases hc : t = c <;> simp_all

theorem upd3_b (m : Blk → Option (List Val)) {a b c : Blk} (x y z w : Option (List Val)) (h2 : c ≠ b) :
    upd (upd (upd (upd m a x) b y) c z) b w = upd (upd (upd m a x) b w) c z := by
  funext t
  simp only [upd]
  by_cases ha : t = a <;> by_cases hb : t = b <;> by_cases hc : t = c <;> simp_all

theorem fmem_upd (mem : Blk → Option (List Val)) {p : Ptr} {x : Blk} (l : Option (List Val)) (h : ∀ b, p = some b → x ≠ .heap b.id) :
    fmem (upd mem x l) p = upd (fmem mem p) x l := by
  cases p with
  | none => rfl
  | some b => exact upd_comm _ _ _ (h b rfl)

theorem oom_mem {st : St} (hw : Wf st) {a b : Bytes} {k v : Ptr} {s : Sched} {h1 h2 : Heap} (hk : alloc a s st.heap = .ok (k, h1))
    (hv : alloc b s h1 = .ok (v, h2)) (x : Blk) : fmem (fmem (amem (amem st.mem k) v) k) v x = st.mem x := by
  obtain ⟨ht1, hkb⟩ := alloc_inv hk
  obtain ⟨ht2, hvb⟩ := alloc_inv hv
  have e1 := hw.heap st.heap.tick (by omega)
  have e2 := hw.heap (st.heap.tick + 1) (by omega)
  cases k with
  | none =>
    cases v with
    | none => rfl
    | some vb =>
      simp only [fmem, amem, upd, (hvb vb rfl).1, ht1]
      split
      · rename_i h; rw [h, e2]
      · rfl
  | some kb =>
    cases v with
    | none =>
      simp only [fmem, amem, upd, (hkb kb rfl).1]
      split
      · rename_i h; rw [h, e1]
      · rfl
    | some vb =>
      simp only [fmem, amem, upd, (hvb vb rfl).1, (hkb kb rfl).1, ht1]
      split
      · rename_i h; rw [h, e2]
      · split
        · rename_i h; rw [h, e1]
        · rfl

theorem wrAt_cells {m w m' : Bytes} (h : wrAt m 0 w = .ok m') : cells m' = poke (cells m) 0 (cells w) := by
  unfold wrAt at h
  split at h
  · cases h
    simp [poke, cells]
  · cases h

/-- What `l8w8jwt_unescape_claim` leaves in memory. -/
def ClaimOut (mem : Blk → Option (List Val)) (C : Blk) (mem' : Blk → Option (List Val)) : Option Claim → Prop
  | none => (∀ x, x ≠ C → mem' x = mem x) ∧ ∃ l, mem' C = some l
  | some c => ∃ kb vb, c.key = some kb ∧ c.value = some vb ∧ mem' =
      upd (upd (upd mem (.heap kb.id) (some (cells kb.mem))) (.heap vb.id) (some (cells vb.mem))) C
        (some [ptrVal c.key, .int c.keyLength, ptrVal c.value, .int c.valueLength, .int c.type])

/-- src/decode.c:130-163: the text of `l8w8jwt_unescape_claim`. -/
theorem wp_unescape_claim (env : Env) (fuel d : Nat) {s : Sched} {st : St} {C : Blk} {a0 a1 a2 a3 pk pv : Val} {type : Int} {kl vl : Nat}
    {key value : Bytes} {rc : Nat} {cl : Option Claim} {h' : Heap} {Q : Val → St → Prop} (hw : Wf st) (hC : C.own = true)
    (hm : st.mem C = some [a0, a1, a2, a3, .int type]) (hty : -2147483648 ≤ type ∧ type < 2147483648)
    (hk : Pts globs st.mem pk (some key)) (hkC : pk.blk ≠ some C)
    (hv : Pts globs st.mem pv (some value)) (hvC : pv.blk ≠ some C)
    (hkl : kl + 1 < 18446744073709551616) (hvl : vl + 1 < 18446744073709551616) (hf : kl < fuel ∧ vl < fuel)
    (hr : unescapeClaim type key kl value vl s st.heap = .ok ((rc, cl), h'))
    (hq : ∀ mem', ClaimOut st.mem C mem' cl → Q (.int rc) { st with heap := h', mem := mem' }) :
    WP (runFun (cx env fuel (d + 1)) l8w8jwt_unescape_claim [.ptr (some (C, 0)), pk, .int kl, pv, .int vl]) s st Q := by
  have hCt : C ≠ .heap st.heap.tick := hw.freshOwn hm
  have hCt1 : C ≠ .heap (st.heap.tick + 1) := by
    rintro rfl
    rw [hw.heap _ (by omega)] at hm
    cases hm
  unfold unescapeClaim at hr
  obtain ⟨k, h1, hk1, hr⟩ := M.bind_inv hr
  obtain ⟨v, h2, hv1, hr⟩ := M.bind_inv hr
  apply wp_runFun
  simp only [l8w8jwt_unescape_claim, Nat.reduceSub, List.replicate, List.cons_append, List.nil_append]
  xs []
  refine wp_paddV (l := [a0, a1, a2, a3, .int type]) (by rw [cont_own hC]; exact hm) (by omega) (by simp) ?_
  xs []
  refine wp_storeV hC (l := [a0, a1, a2, a3, .int type]) (w := .int 0) (by exact hm) (by omega) (by simp) (by rfl) ?_
  xs []
  refine wp_callocP env fuel (d + 1) (p := k) (h' := h1) hk1 ?_
  obtain ⟨ht1, hkb⟩ := alloc_inv hk1
  obtain ⟨ht2, hvb⟩ := alloc_inv hv1
  have hCk : ∀ b, k = some b → C ≠ .heap b.id := fun b hb => by rw [(hkb b hb).1]; exact hCt
  have hCv : ∀ b, v = some b → C ≠ .heap b.id := fun b hb => by rw [(hvb b hb).1, ht1]; exact hCt1
  rw [amem_upd _ _ hCk]
  refine wp_storeV hC (l := [a0, .int 0, a2, a3, .int type]) (w := ptrVal k) (upd_same _ _ _) (by omega) (by simp) (by cases k <;> rfl) ?_
  rw [upd_upd]
  simp only [Int.reduceToNat, List.set_cons_zero]
  xs []
  refine wp_paddV (l := [ptrVal k, .int 0, a2, a3, .int type]) (by rw [cont_own hC]; exact upd_same _ _ _) (by omega) (by simp) ?_
  xs []
  refine wp_storeV hC (l := [ptrVal k, .int 0, a2, a3, .int type]) (w := .int 0) (upd_same _ _ _) (by omega) (by simp) (by rfl) ?_
  rw [upd_upd]
  simp only [Int.zero_add, Int.reduceToNat, List.set_cons_succ, List.set_cons_zero]
  xs []
  refine wp_paddV (l := [ptrVal k, .int 0, a2, .int 0, .int type]) (by rw [cont_own hC]; exact upd_same _ _ _) (by omega) (by simp) ?_
  xs []
  refine wp_callocP env fuel (d + 1) (p := v) (h' := h2) hv1 ?_
  rw [amem_upd _ _ hCv]
  refine wp_storeV hC (l := [ptrVal k, .int 0, a2, .int 0, .int type]) (w := ptrVal v) (upd_same _ _ _) (by omega) (by simp) (by cases v <;> rfl) ?_
  rw [upd_upd]
  simp only [Int.zero_add, Int.reduceToNat, List.set_cons_succ, List.set_cons_zero]
  xi []
  have hst : ∀ mem' : Blk → Option (List Val), (∀ x, x ≠ C → (∀ j, st.heap.tick ≤ j → x ≠ .heap j) → mem' x = st.mem x) → ∀ j, st.stk ≤ j → mem' (.stack j) = none := by
    intro mem' h j hj
    rw [h _ ?_ (by simp)]
    · exact hw.stack j hj
    · rintro rfl
      rw [hw.stack j hj] at hm
      cases hm
  have hnn : ∀ P : Ptr, (ptrVal P = .ptr none) = (P = none) := fun P => by cases P <;> simp [ptrVal]
  cases k with
  | none =>
    obtain ⟨⟨⟩, h3, hf1, hr⟩ := M.bind_inv hr
    obtain ⟨⟨⟩, h4, hf2, hr⟩ := M.bind_inv hr
    cases hr
    xs []
    refine wp_loadV (l := [ptrVal none, .int 0, ptrVal v, .int 0, .int type]) (v := ptrVal none) (w := ptrVal none)
      (by rw [cont_own hC]; exact upd_same _ _ _) (by omega) (by rfl) (asTy_ptrVal _ _) ?_
    rw [show ptrVal none = .ptr none from rfl]
    xs []
    rw [← show ptrVal none = .ptr none from rfl]
    refine wp_loadV (l := [ptrVal none, .int 0, ptrVal v, .int 0, .int type]) (v := ptrVal none) (w := ptrVal none)
      (by rw [cont_own hC]; exact upd_same _ _ _) (by omega) (by rfl) (asTy_ptrVal _ _) ?_
    xs []
    refine wp_free env fuel (d + 1) (P := none) hf1 ?_
    rw [fmem_upd _ _ hCk]
    xs []
    refine wp_paddV (l := [ptrVal none, .int 0, ptrVal v, .int 0, .int type]) (by rw [cont_own hC]; exact upd_same _ _ _) (by omega) (by simp) ?_
    refine wp_loadV (l := [ptrVal none, .int 0, ptrVal v, .int 0, .int type]) (v := ptrVal v) (w := ptrVal v)
      (by rw [cont_own hC]; exact upd_same _ _ _) (by omega) (by rfl) (asTy_ptrVal _ _) ?_
    xs []
    refine wp_free env fuel (d + 1) (P := v) hf2 ?_
    rw [fmem_upd _ _ hCv]
    xs []
    have hfin : ∀ x, x ≠ C → upd (fmem (fmem (amem (amem st.mem none) v) none) v) C
        (some [ptrVal none, .int 0, ptrVal v, .int 0, .int type]) x = st.mem x := by
      intro x hx
      rw [upd_ne _ _ hx]
      exact oom_mem hw hk1 hv1 x
    rw [dropStack_none (hst _ fun x hx _ => hfin x hx)]
    exact hq _ ⟨hfin, _, upd_same _ _ _⟩
  | some kb =>
  cases v with
  | none =>
    obtain ⟨⟨⟩, h3, hf1, hr⟩ := M.bind_inv hr
    obtain ⟨⟨⟩, h4, hf2, hr⟩ := M.bind_inv hr
    cases hr
    xs []
    refine wp_loadV (l := [ptrVal (some kb), .int 0, ptrVal none, .int 0, .int type]) (v := ptrVal (some kb)) (w := ptrVal (some kb))
      (by rw [cont_own hC]; exact upd_same _ _ _) (by omega) (by rfl) (asTy_ptrVal _ _) ?_
    rw [show ptrVal (some kb) = .ptr (some (.heap kb.id, 0)) from rfl]
    xs []
    rw [← show ptrVal (some kb) = .ptr (some (.heap kb.id, 0)) from rfl]
    refine wp_paddV (l := [ptrVal (some kb), .int 0, ptrVal none, .int 0, .int type]) (by rw [cont_own hC]; exact upd_same _ _ _) (by omega) (by simp) ?_
    refine wp_loadV (l := [ptrVal (some kb), .int 0, ptrVal none, .int 0, .int type]) (v := ptrVal none) (w := ptrVal none)
      (by rw [cont_own hC]; exact upd_same _ _ _) (by omega) (by rfl) (asTy_ptrVal _ _) ?_
    rw [show ptrVal none = .ptr none from rfl]
    xs []
    rw [← show ptrVal none = .ptr none from rfl]
    refine wp_loadV (l := [ptrVal (some kb), .int 0, ptrVal none, .int 0, .int type]) (v := ptrVal (some kb)) (w := ptrVal (some kb))
      (by rw [cont_own hC]; exact upd_same _ _ _) (by omega) (by rfl) (asTy_ptrVal _ _) ?_
    xs []
    refine wp_free env fuel (d + 1) (P := some kb) hf1 ?_
    rw [fmem_upd _ _ hCk]
    xs []
    refine wp_paddV (l := [ptrVal (some kb), .int 0, ptrVal none, .int 0, .int type]) (by rw [cont_own hC]; exact upd_same _ _ _) (by omega) (by simp) ?_
    refine wp_loadV (l := [ptrVal (some kb), .int 0, ptrVal none, .int 0, .int type]) (v := ptrVal none) (w := ptrVal none)
      (by rw [cont_own hC]; exact upd_same _ _ _) (by omega) (by rfl) (asTy_ptrVal _ _) ?_
    xs []
    refine wp_free env fuel (d + 1) (P := none) hf2 ?_
    rw [fmem_upd _ _ hCv]
    xs []
    have hfin : ∀ x, x ≠ C → upd (fmem (fmem (amem (amem st.mem (some kb)) none) (some kb)) none) C
        (some [ptrVal (some kb), .int 0, ptrVal none, .int 0, .int type]) x = st.mem x := by
      intro x hx
      rw [upd_ne _ _ hx]
      exact oom_mem hw hk1 hv1 x
    rw [dropStack_none (hst _ fun x hx _ => hfin x hx)]
    exact hq _ ⟨hfin, _, upd_same _ _ _⟩
  | some vb =>
    obtain ⟨rfl, hl1⟩ := hkb kb rfl
    obtain ⟨rfl, hl2⟩ := hvb vb rfl
    obtain ⟨ks, hks, hr⟩ := M.liftBind_inv hr
    obtain ⟨kmem, hkm, hr⟩ := M.liftBind_inv hr
    simp only at hkm
    have hksl : kl ≤ key.length ∧ key.take kl = ks := by
      unfold rdN at hks
      split at hks
      · cases hks; exact ⟨by assumption, rfl⟩
      · cases hks
    have hku : (unescapeString ks).length ≤ kl := by
      have := unescape_length ks
      have h2 : ks.length = kl := by rw [← hksl.2, List.length_take]; omega
      omega
    have hne1 : (Blk.heap (st.heap.tick + 1)) ≠ .heap st.heap.tick := by simp
    simp only [amem]
    rw [ht1]
    generalize hkB : ({ id := st.heap.tick, mem := List.replicate (kl + 1) 0 } : Block) = kb
    generalize hvB : ({ id := st.heap.tick + 1, mem := List.replicate (vl + 1) 0 } : Block) = vb
    have hkp : ptrVal (some kb) = .ptr (some (.heap st.heap.tick, 0)) := by rw [← hkB]; rfl
    have hvp : ptrVal (some vb) = .ptr (some (.heap (st.heap.tick + 1), 0)) := by rw [← hvB]; rfl
    have hpts : ∀ {q : Val} {m : Bytes}, Pts globs st.mem q (some m) → q.blk ≠ some C → ∀ x y z,
        Pts globs (upd (upd (upd st.mem (.heap st.heap.tick) x) (.heap (st.heap.tick + 1)) y) C z) q (some m) ∧
        q.blk ≠ some (.heap st.heap.tick) ∧ q.blk ≠ some (.heap (st.heap.tick + 1)) := by
      rintro q m hp hqC x y z
      have hb : ∀ j, st.heap.tick ≤ j → q.blk ≠ some (.heap j) := by
        intro j hj e
        obtain ⟨b, o, l, rfl, h1, -, -⟩ := hp
        simp only [Val.blk, Option.some.injEq] at e
        subst e
        simp only [cont, hw.heap j hj] at h1
        cases h1
      refine ⟨hp.frame ?_, hb _ (by omega), hb _ (by omega)⟩
      intro b hbq
      rw [upd_ne _ _ (fun e => hqC (by rw [hbq, e])), upd_ne _ _ (fun e => hb (st.heap.tick + 1) (by omega) (by rw [hbq, e])),
        upd_ne _ _ (fun e => hb st.heap.tick (by omega) (by rw [hbq, e]))]
    have hCK : C ≠ .heap st.heap.tick := hCt
    xs []
    refine wp_loadV (l := [ptrVal (some kb), .int 0, ptrVal (some vb), .int 0, .int type]) (v := ptrVal (some kb)) (w := ptrVal (some kb))
      (by rw [cont_own hC]; exact upd_same _ _ _) (by omega) (by rfl) (asTy_ptrVal _ _) ?_
    rw [hkp]
    xs []
    rw [← hkp]
    refine wp_paddV (l := [ptrVal (some kb), .int 0, ptrVal (some vb), .int 0, .int type]) (by rw [cont_own hC]; exact upd_same _ _ _) (by omega) (by simp) ?_
    refine wp_loadV (l := [ptrVal (some kb), .int 0, ptrVal (some vb), .int 0, .int type]) (v := ptrVal (some vb)) (w := ptrVal (some vb))
      (by rw [cont_own hC]; exact upd_same _ _ _) (by omega) (by rfl) (asTy_ptrVal _ _) ?_
    rw [hvp]
    xs []
    rw [← hvp]
    refine wp_loadV (l := [ptrVal (some kb), .int 0, ptrVal (some vb), .int 0, .int type]) (v := ptrVal (some kb)) (w := ptrVal (some kb))
      (by rw [cont_own hC]; exact upd_same _ _ _) (by omega) (by rfl) (asTy_ptrVal _ _) ?_
    xs []
    rw [cx_fun _ _ _ (fn := l8w8jwt_unescape_string) rfl]
    have hstk : ∀ (x y z : Option (List Val)) (j : Nat), st.stk ≤ j →
        upd (upd (upd st.mem (.heap st.heap.tick) x) (.heap (st.heap.tick + 1)) y) C z (.stack j) = none := by
      intro x y z
      refine hst _ ?_
      intro t ht hj
      rw [upd_ne _ _ ht, upd_ne _ _ (hj _ (by omega)), upd_ne _ _ (hj _ (by omega))]
    rw [hkp]
    refine wp_unescape env fuel d (B := .heap st.heap.tick) (o := 0) (l := cells (List.replicate (kl + 1) 0)) (m := key)
      (hstk _ _ _) rfl (by simp) ?_ (hpts hk hkC _ _ _).1 (hpts hk hkC none none none).2.1 hksl.1 (by omega) hf.1 ?_ ?_
    · show upd _ _ _ _ = _
      rw [upd_ne _ _ (Ne.symm hCt), upd_ne _ _ (Ne.symm hne1), upd_same]
    · rw [hksl.2, cells_length, List.length_replicate]
      omega
    rw [hksl.2, upd3_a _ _ _ _ _ hne1 hCt, ← hkp]
    xs []
    refine wp_store_char (x := 0) (w := unescapeString ks) (o := 0) (l := cells (List.replicate (kl + 1) 0)) rfl ?_ rfl rfl ?_ ?_
    · show upd _ _ _ _ = _
      rw [upd_ne _ _ (Ne.symm hCt), upd_ne _ _ (Ne.symm hne1), upd_same]
    · rw [cells_length, List.length_replicate]
      omega
    rw [upd3_a _ _ _ _ _ hne1 hCt, ← wrAt_cells hkm]
    xs []
    refine wp_paddV (l := [ptrVal (some kb), .int 0, ptrVal (some vb), .int 0, .int type]) (by rw [cont_own hC]; exact upd_same _ _ _) (by omega) (by simp) ?_
    xs []
    refine wp_loadV (l := [ptrVal (some kb), .int 0, ptrVal (some vb), .int 0, .int type]) (v := ptrVal (some kb)) (w := ptrVal (some kb))
      (by rw [cont_own hC]; exact upd_same _ _ _) (by omega) (by rfl) (asTy_ptrVal _ _) ?_
    rw [hkp]
    xs []
    rw [← hkp, show ((((0 + (unescapeString ks).length : Nat) : Int) - 0) / 1) = (unescapeString ks).length by omega]
    refine wp_storeV hC (l := [ptrVal (some kb), .int 0, ptrVal (some vb), .int 0, .int type]) (w := .int (unescapeString ks).length) (upd_same _ _ _) (by omega) (by simp) (by rfl) ?_
    rw [upd_upd]
    simp only [Int.zero_add, Int.reduceToNat, List.set_cons_succ, List.set_cons_zero]
    xs []
    refine wp_paddV (l := [ptrVal (some kb), .int (unescapeString ks).length, ptrVal (some vb), .int 0, .int type]) (by rw [cont_own hC]; exact upd_same _ _ _) (by omega) (by simp) ?_
    refine wp_loadV (l := [ptrVal (some kb), .int (unescapeString ks).length, ptrVal (some vb), .int 0, .int type]) (v := .int type) (w := .int type)
      (by rw [cont_own hC]; exact upd_same _ _ _) (by omega) (by rfl) (by simp [asTy, wrapr_i32 _ hty.1 hty.2]) ?_
    xi []
    simp only [L8W8JWT_CLAIM_TYPE_STRING] at hr
    refine ⟨fun h0 => ?_, fun h0 => ?_⟩
    · rw [if_pos h0] at hr
      obtain ⟨vs, hvs, hr⟩ := M.liftBind_inv hr
      obtain ⟨vmem, hvm, hr⟩ := M.liftBind_inv hr
      cases hr
      have hvsl : vl ≤ value.length ∧ value.take vl = vs := by
        unfold rdN at hvs
        split at hvs
        · cases hvs; exact ⟨by assumption, rfl⟩
        · cases hvs
      have hvu : (unescapeString vs).length ≤ vl := by
        have := unescape_length vs
        have h2 : vs.length = vl := by rw [← hvsl.2, List.length_take]; omega
        omega
      xs []
      refine wp_paddV (l := [ptrVal (some kb), .int (unescapeString ks).length, ptrVal (some vb), .int 0, .int type]) (by rw [cont_own hC]; exact upd_same _ _ _) (by omega) (by simp) ?_
      refine wp_loadV (l := [ptrVal (some kb), .int (unescapeString ks).length, ptrVal (some vb), .int 0, .int type]) (v := ptrVal (some vb)) (w := ptrVal (some vb))
        (by rw [cont_own hC]; exact upd_same _ _ _) (by omega) (by rfl) (asTy_ptrVal _ _) ?_
      xs []
      rw [cx_fun _ _ _ (fn := l8w8jwt_unescape_string) rfl, hvp]
      refine wp_unescape env fuel d (B := .heap (st.heap.tick + 1)) (o := 0) (l := cells (List.replicate (vl + 1) 0)) (m := value)
        (hstk _ _ _) rfl (by simp) ?_ (hpts hv hvC _ _ _).1 (hpts hv hvC none none none).2.2 hvsl.1 (by omega) hf.2 ?_ ?_
      · show upd _ _ _ _ = _
        rw [upd_ne _ _ (Ne.symm hCt1), upd_same]
      · rw [hvsl.2, cells_length, List.length_replicate]
        omega
      rw [hvsl.2, upd3_b _ _ _ _ _ hCt1, ← hvp]
      xs []
      refine wp_store_char (x := 0) (w := unescapeString vs) (o := 0) (l := cells (List.replicate (vl + 1) 0)) rfl ?_ rfl rfl ?_ ?_
      · show upd _ _ _ _ = _
        rw [upd_ne _ _ (Ne.symm hCt1), upd_same]
      · rw [cells_length, List.length_replicate]
        omega
      rw [upd3_b _ _ _ _ _ hCt1, ← wrAt_cells hvm]
      xs []
      refine wp_paddV (l := [ptrVal (some kb), .int (unescapeString ks).length, ptrVal (some vb), .int 0, .int type]) (by rw [cont_own hC]; exact upd_same _ _ _) (by omega) (by simp) ?_
      xs []
      refine wp_paddV (l := [ptrVal (some kb), .int (unescapeString ks).length, ptrVal (some vb), .int 0, .int type]) (by rw [cont_own hC]; exact upd_same _ _ _) (by omega) (by simp) ?_
      refine wp_loadV (l := [ptrVal (some kb), .int (unescapeString ks).length, ptrVal (some vb), .int 0, .int type]) (v := ptrVal (some vb)) (w := ptrVal (some vb))
        (by rw [cont_own hC]; exact upd_same _ _ _) (by omega) (by rfl) (asTy_ptrVal _ _) ?_
      rw [hvp]
      xs []
      rw [← hvp, show ((((0 + (unescapeString vs).length : Nat) : Int) - 0) / 1) = (unescapeString vs).length by omega]
      refine wp_storeV hC (l := [ptrVal (some kb), .int (unescapeString ks).length, ptrVal (some vb), .int 0, .int type]) (w := .int (unescapeString vs).length) (upd_same _ _ _) (by omega) (by simp) (by rfl) ?_
      rw [upd_upd]
      simp only [Int.zero_add, Int.reduceToNat, List.set_cons_succ, List.set_cons_zero]
      xs []
      rw [dropStack_none (hstk _ _ _)]
      refine hq _ ⟨_, _, rfl, rfl, ?_⟩
      rw [← hkB, ← hvB, ht1]
      rfl
    · rw [if_neg h0] at hr
      obtain ⟨vs, hvs, hr⟩ := M.liftBind_inv hr
      obtain ⟨vmem, hvm, hr⟩ := M.liftBind_inv hr
      cases hr
      have hvsl := strncpy_length hvs
      xs []
      refine wp_paddV (l := [ptrVal (some kb), .int (unescapeString ks).length, ptrVal (some vb), .int 0, .int type]) (by rw [cont_own hC]; exact upd_same _ _ _) (by omega) (by simp) ?_
      refine wp_loadV (l := [ptrVal (some kb), .int (unescapeString ks).length, ptrVal (some vb), .int 0, .int type]) (v := ptrVal (some vb)) (w := ptrVal (some vb))
        (by rw [cont_own hC]; exact upd_same _ _ _) (by omega) (by rfl) (asTy_ptrVal _ _) ?_
      xs []
      rw [hvp]
      refine wp_strncpy env fuel (d + 1) (l := cells (List.replicate (vl + 1) 0)) (m := value) rfl ?_ (hpts hv hvC _ _ _).1 hvs ?_ ?_
      · show upd _ _ _ _ = _
        rw [upd_ne _ _ (Ne.symm hCt1), upd_same]
      · rw [cells_length, List.length_replicate]
        omega
      intro _
      rw [upd3_b _ _ _ _ _ hCt1, ← hvp]
      xs []
      refine wp_paddV (l := [ptrVal (some kb), .int (unescapeString ks).length, ptrVal (some vb), .int 0, .int type]) (by rw [cont_own hC]; exact upd_same _ _ _) (by omega) (by simp) ?_
      refine wp_loadV (l := [ptrVal (some kb), .int (unescapeString ks).length, ptrVal (some vb), .int 0, .int type]) (v := ptrVal (some vb)) (w := ptrVal (some vb))
        (by rw [cont_own hC]; exact upd_same _ _ _) (by omega) (by rfl) (asTy_ptrVal _ _) ?_
      rw [hvp]
      xs []
      refine wp_paddV (l := poke (cells (List.replicate (vl + 1) 0)) 0 (cells vs)) ?_ (by omega) ?_ ?_
      · show upd _ _ _ _ = _
        rw [upd_ne _ _ (Ne.symm hCt1), upd_same]
      · rw [poke_length (by rw [cells_length, cells_length, List.length_replicate]; omega), cells_length, List.length_replicate]; omega
      xs []
      refine wp_store_char (x := 0) (w := vs) (o := 0) (l := cells (List.replicate (vl + 1) 0)) rfl ?_ (by omega) rfl ?_ ?_
      · show upd _ _ _ _ = _
        rw [upd_ne _ _ (Ne.symm hCt1), upd_same]
      · rw [cells_length, List.length_replicate]
        omega
      rw [upd3_b _ _ _ _ _ hCt1, ← wrAt_cells hvm, ← hvp]
      xs []
      refine wp_paddV (l := [ptrVal (some kb), .int (unescapeString ks).length, ptrVal (some vb), .int 0, .int type]) (by rw [cont_own hC]; exact upd_same _ _ _) (by omega) (by simp) ?_
      xs []
      refine wp_storeV hC (l := [ptrVal (some kb), .int (unescapeString ks).length, ptrVal (some vb), .int 0, .int type]) (w := .int vl) (upd_same _ _ _) (by omega) (by simp) (by rfl) ?_
      rw [upd_upd]
      simp only [Int.zero_add, Int.reduceToNat, List.set_cons_succ, List.set_cons_zero]
      xs []
      rw [dropStack_none (hstk _ _ _)]
      refine hq _ ⟨_, _, rfl, rfl, ?_⟩
      rw [← hkB, ← hvB, ht1]
      rfl

end L8w8jwt.C
