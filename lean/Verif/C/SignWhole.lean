import Verif.C.SignProof
/-!
# write_signature (src/encode.c:30-65, 219-587): text and model
-/

namespace L8w8jwt.C
open L8w8jwt L8w8jwt.C.Src

/-- One arm of the `switch` in `md_info_from_alg`. -/
def mdArm (cs : List Int) (len code : Int) : List Stmt :=
  cs.map Stmt.case ++
    [.exp (.store (.int .u64) (.loc 3) (.num len)),
     .exp (.store (.int .u32) (.loc 2) (.num code)),
     .exp (.store .ptr (.loc 1) (callE "mbedtls_md_info_from_type" [.num code])),
     .brk]

/-- encode.c:30-65; decode.c has one more algorithm in the third arm. -/
def mdBody (cs : List Int) : Stmt :=
  .switch (.loc 0) (pre (mdArm [0, 3, 6, 9, 12] 32 9 ++ (mdArm [1, 4, 7, 10] 48 10 ++ (mdArm cs 64 11 ++ [.default]))) .brk)

/-- The hash function of the arms. -/
def mdSel (cs : List Int) (alg : Int) : Option Md :=
  if alg ∈ [0, 3, 6, 9, 12] then some .sha256 else if alg ∈ [1, 4, 7, 10] then some .sha384 else if alg ∈ cs then some .sha512 else none

theorem md_info_enc : encode_c_md_info_from_alg = ⟨"encode_c_md_info_from_alg", 4, 4, mdBody [2, 5, 8, 11]⟩ := rfl
theorem md_info_dec : md_info_from_alg = ⟨"md_info_from_alg", 4, 4, mdBody [2, 5, 8, 11, 13]⟩ := rfl

theorem encMd_sel (alg : Int) : encMd alg = mdSel [2, 5, 8, 11] alg := by
  simp only [encMd, mdSel, List.mem_cons, List.not_mem_nil, or_false]

theorem decMd_sel (alg : Int) : decMd alg = mdSel [2, 5, 8, 11, 13] alg := by
  simp only [decMd, mdSel, List.mem_cons, List.not_mem_nil, or_false]

theorem skips_mdArm {cs : List Int} {len code j : Int} (h : j ∉ cs) : (mdArm cs len code).all (skips (.case j)) = true := by
  rw [mdArm, List.all_append, List.all_map]
  simp only [Bool.and_eq_true]
  refine ⟨?_, rfl⟩
  rw [List.all_eq_true]
  intro x hx
  simp only [Function.comp, skips, decide_eq_true_eq]
  rintro rfl
  exact h hx

section
variable {m : Blk → Option (List Val)} {k : Lay} {ex : List (List Val)} {s : Sched} {heap : Heap} {fr : List Val} {stk : Nat}

theorem wp_mdArm (env : Env) (fuel d : Nat) {cs : List Int} {md : Md} {i a b : Nat} {u v t : Val} {alg : Int} {L : List Stmt} {body : Stmt}
    {Q : Ctl → St → Prop} (hcs : alg ∈ cs) (hi : ex[i]? = some [u]) (ha : ex[a]? = some [v]) (hb : ex[b]? = some [t]) (hia : i ≠ a) (hib : i ≠ b)
    (hab : a ≠ b)
    (hq : Q (.next .run) ⟨[.int alg, loc k i, loc k a, loc k b], heap,
      stkMem m k (((ex.set b [.int md.len]).set a [.int (mdCode md)]).set i [mdInfo (some md)]), stk⟩) :
    WP (exec (cx env fuel d) (pre (mdArm cs md.len (mdCode md) ++ L) .brk) (.case alg)) s
      ⟨[.int alg, loc k i, loc k a, loc k b], heap, stkMem m k ex, stk⟩ (Dflt (cx env fuel d) body s Q) := by
  rw [mdArm, List.append_assoc, pre_hit _ _ hcs]
  simp only [List.cons_append, List.nil_append]
  have h1 : (ex.set b [.int md.len])[a]? = some [v] := by rw [List.getElem?_set_ne (Ne.symm hab)]; exact ha
  have h2 : ((ex.set b [.int md.len]).set a [.int (mdCode md)])[i]? = some [u] := by
    rw [List.getElem?_set_ne (Ne.symm hia), List.getElem?_set_ne (Ne.symm hib)]; exact hi
  xp
  refine wp_putStk env fuel d hb rfl ?_
  xp
  refine wp_putStk env fuel d h1 rfl ?_
  xp
  rw [cx_lib _ _ _ rfl]
  show WP (pure (mdInfo (mdOf (mdCode md)))) s _ _
  rw [mdOf_code, wp_pure]
  refine wp_putStk env fuel d (v' := mdInfo (some md)) h2 (by cases md <;> rfl) ?_
  xp
  exact hq

theorem dropStack_stk (hk : k.pre.length ≤ ex.length) : dropStack (k + ex.length) (stkMem m k ex) = stkMem m k ex := by
  funext b
  cases b <;> simp only [dropStack]
  split
  · rename_i hj
    rw [stk_top hk _ hj]
  · rfl

/-- encode.c:30-65 -/
theorem wp_mdInfo (env : Env) (fuel d : Nat) {f nm : String} {i a b : Nat} {u v t : Val} {alg : Int} {cs : List Int} {Q : Val → St → Prop}
    (hf : prog env.eddsa env.smallStack f = some ⟨nm, 4, 4, mdBody cs⟩) (hk : k.pre.length ≤ ex.length)
    (hi : ex[i]? = some [u]) (ha : ex[a]? = some [v]) (hb : ex[b]? = some [t]) (hia : i ≠ a) (hib : i ≠ b) (hab : a ≠ b)
    (h0 : mdSel cs alg = none → Q .undef ⟨fr, heap, stkMem m k ex, k + ex.length⟩)
    (h1 : ∀ md, mdSel cs alg = some md →
      Q .undef ⟨fr, heap, stkMem m k (((ex.set b [.int md.len]).set a [.int (mdCode md)]).set i [mdInfo (some md)]), k + ex.length⟩) :
    WP ((cx env fuel (d + 1)).call f [.int alg, loc k i, loc k a, loc k b]) s ⟨fr, heap, stkMem m k ex, k + ex.length⟩ Q := by
  rw [cx_fun _ _ _ hf]
  apply wp_runFun
  simp only [Nat.sub_self, List.replicate_zero, List.append_nil]
  unfold mdBody
  rw [wp_switch]
  generalize hbody : pre (mdArm [0, 3, 6, 9, 12] 32 9 ++ (mdArm [1, 4, 7, 10] 48 10 ++ (mdArm cs 64 11 ++ [.default]))) .brk = body
  xi []
  have hret : ∀ md, mdSel cs alg = some md →
      Return ⟨fr, heap, stkMem m k ex, k + ex.length⟩ Q (.next .run) ⟨[.int alg, loc k i, loc k a, loc k b], heap,
        stkMem m k (((ex.set b [.int md.len]).set a [.int (mdCode md)]).set i [mdInfo (some md)]), k + ex.length⟩ := by
    intro md h
    rw [return_next]
    have : ex.length = (((ex.set b [.int md.len]).set a [.int (mdCode md)]).set i [mdInfo (some md)]).length := by simp
    simp only
    rw [this, dropStack_stk (by rw [← this]; exact hk), ← this]
    exact h1 md h
  by_cases c1 : alg ∈ [0, 3, 6, 9, 12]
  · have hs : mdSel cs alg = some .sha256 := by rw [mdSel, if_pos c1]
    conv => arg 1; rw [← hbody]
    exact wp_mdArm env fuel d (md := .sha256) c1 hi ha hb hia hib hab (hret _ hs)
  by_cases c2 : alg ∈ [1, 4, 7, 10]
  · have hs : mdSel cs alg = some .sha384 := by rw [mdSel, if_neg c1, if_pos c2]
    conv => arg 1; rw [← hbody]
    rw [skip_app (skips_mdArm c1)]
    exact wp_mdArm env fuel d (md := .sha384) c2 hi ha hb hia hib hab (hret _ hs)
  by_cases c3 : alg ∈ cs
  · have hs : mdSel cs alg = some .sha512 := by rw [mdSel, if_neg c1, if_neg c2, if_pos c3]
    conv => arg 1; rw [← hbody]
    rw [skip_app (skips_mdArm c1), skip_app (skips_mdArm c2)]
    exact wp_mdArm env fuel d (md := .sha512) c3 hi ha hb hia hib hab (hret _ hs)
  · have hs : mdSel cs alg = none := by rw [mdSel, if_neg c1, if_neg c2, if_neg c3]
    conv => arg 1; rw [← hbody]
    rw [skip_app (skips_mdArm c1), skip_app (skips_mdArm c2), skip_app (skips_mdArm c3), skip_pre (by rfl), skip_stmt (by rfl), dflt_case, ← hbody]
    have hd : ∀ (x : List Int) (l c : Int), (mdArm x l c).all (skips .dflt) = true := by
      intro x l c
      rw [mdArm, List.all_append, List.all_map]
      simp only [Bool.and_eq_true]
      exact ⟨List.all_eq_true.2 fun _ _ => rfl, rfl⟩
    rw [skip_app (hd _ _ _), skip_app (hd _ _ _), skip_app (hd _ _ _)]
    xp
    rw [dropStack_stk hk]
    exact h0 hs

theorem stk_ext {mem : Blk → Option (List Val)} (h1 : ∀ i, mem (k.blk i) = ex[i]?) (h2 : ∀ b, (∀ i, b ≠ k.blk i) → mem b = m b) :
    mem = stkMem m k ex := by
  funext b
  rcases stk_cases (k := k) b with ⟨j, rfl⟩ | hb
  · rw [stk_get, h1]
  · rw [stk_old hb, h2 b hb]

/-- `n` objects on the stack, then the heap blocks `hs`, then the stack again. -/
def Lay.ext (k n : Nat) (hs : List Nat) (h : hs.Nodup) : Lay where
  base := k
  pre := (List.range n).map (fun i => Blk.stack (k + i)) ++ hs.map Blk.heap
  top := k + n
  le := Nat.le_add_right _ _
  nodup := by
    rw [List.nodup_append]
    refine ⟨?_, ?_, ?_⟩
    · exact List.Pairwise.map _ (fun a b hab => by simpa using hab) List.nodup_range
    · exact List.Pairwise.map _ (fun a b hab => by simpa using hab) h
    · intro a ha b hb
      simp only [List.mem_map] at ha hb
      obtain ⟨_, -, rfl⟩ := ha
      obtain ⟨_, -, rfl⟩ := hb
      simp
  low := by
    intro j hj
    simp only [List.mem_append, List.mem_map, List.mem_range, Blk.stack.injEq, reduceCtorEq, and_false, exists_false, or_false] at hj
    obtain ⟨i, hi, rfl⟩ := hj
    omega
  own := by
    intro b hb
    simp only [List.mem_append, List.mem_map] at hb
    rcases hb with ⟨_, -, rfl⟩ | ⟨_, -, rfl⟩ <;> rfl

section
variable {k0 n : Nat} {hs : List Nat} {hn : hs.Nodup}

theorem Lay.ext_len : (Lay.ext k0 n hs hn).pre.length = n + hs.length := by simp [Lay.ext]

theorem Lay.of_blk (i : Nat) : (Lay.of k0).blk i = .stack (k0 + i) := by simp [Lay.blk, Lay.of]

theorem Lay.ext_lt {i : Nat} (h : i < n) : (Lay.ext k0 n hs hn).blk i = .stack (k0 + i) := by
  simp [Lay.blk, Lay.ext, List.getElem?_append, h]

theorem Lay.ext_heap {i a : Nat} (h : hs[i]? = some a) : (Lay.ext k0 n hs hn).blk (n + i) = .heap a := by
  have : ¬ n + i < n := by omega
  simp [Lay.blk, Lay.ext, List.getElem?_append, h, this]

theorem Lay.ext_ge {i : Nat} (h : hs.length ≤ i) : (Lay.ext k0 n hs hn).blk (n + i) = .stack (k0 + n + (i - hs.length)) := by
  rw [Lay.blk_stack _ (by rw [Lay.ext_len]; omega), Lay.add_def, Lay.ext_len]
  show Blk.stack (k0 + n + _) = _
  congr 2
  omega

theorem Lay.ext_mem {b : Blk} (h : ∀ i, b ≠ (Lay.ext k0 n hs hn).blk i) : (∀ a ∈ hs, b ≠ .heap a) ∧ ∀ j, k0 ≤ j → b ≠ .stack j := by
  constructor
  · rintro a ha rfl
    obtain ⟨i, hi⟩ := List.getElem?_of_mem ha
    exact h (n + i) (Lay.ext_heap hi).symm
  · rintro j hj rfl
    rcases Nat.lt_or_ge (j - k0) n with hl | hl
    · exact h (j - k0) (by rw [Lay.ext_lt hl]; congr 1; omega)
    · exact h (n + (j - k0 - n + hs.length)) (by rw [Lay.ext_ge (by omega)]; congr 1; omega)

theorem Lay.ext_cases (i : Nat) : (∃ j, k0 ≤ j ∧ (Lay.ext k0 n hs hn).blk i = .stack j) ∨ ∃ a ∈ hs, (Lay.ext k0 n hs hn).blk i = .heap a := by
  rcases Nat.lt_or_ge i n with hl | hl
  · exact .inl ⟨_, Nat.le_add_right _ _, Lay.ext_lt hl⟩
  obtain ⟨j, rfl⟩ := Nat.exists_eq_add_of_le hl
  rcases Nat.lt_or_ge j hs.length with h | h
  · exact .inr ⟨hs[j], List.getElem_mem h, Lay.ext_heap (List.getElem?_eq_getElem h)⟩
  · exact .inl ⟨_, by omega, Lay.ext_ge h⟩

theorem stkMem_ext0 : stkMem m (Lay.of k0) ex = stkMem m (Lay.ext k0 n [] List.nodup_nil) ex := by
  have e : ∀ i, (Lay.ext k0 n [] List.nodup_nil).blk i = (Lay.of k0).blk i := by
    intro i
    rw [Lay.of_blk]
    rcases Nat.lt_or_ge i n with hl | hl
    · exact Lay.ext_lt hl
    · obtain ⟨j, rfl⟩ := Nat.exists_eq_add_of_le hl
      rw [Lay.ext_ge (hs := []) (Nat.zero_le j)]
      congr 1
      simp
      omega
  refine stk_ext (fun i => ?_) fun b hb => ?_
  · rw [e, stk_get]
  · exact stk_old fun i => by rw [← e]; exact hb i

theorem stkMem_push {a : Nat} {l : List Val} (hn' : (hs ++ [a]).Nodup) (hl : ex.length = n + hs.length) :
    upd (stkMem m (Lay.ext k0 n hs hn) ex) (.heap a) (some l) = stkMem m (Lay.ext k0 n (hs ++ [a]) hn') (ex ++ [l]) := by
  refine stk_ext (fun i => ?_) fun b hb => ?_
  · rcases Nat.lt_or_ge i n with h1 | h1
    · rw [Lay.ext_lt h1, upd_ne _ _ (by simp), ← Lay.ext_lt (hs := hs) (hn := hn) h1, stk_get, List.getElem?_append_left (by omega)]
    · obtain ⟨j, rfl⟩ := Nat.exists_eq_add_of_le h1
      rcases Nat.lt_trichotomy j hs.length with h2 | h2 | h2
      · have e : hs[j]? = some hs[j] := List.getElem?_eq_getElem h2
        have e' : (hs ++ [a])[j]? = some hs[j] := by rw [List.getElem?_append_left h2, e]
        have hne : hs[j] ≠ a := by
          rw [List.nodup_append] at hn'
          exact hn'.2.2 _ (List.getElem_mem h2) a (by simp)
        rw [Lay.ext_heap e', upd_ne _ _ (by simpa using hne), ← Lay.ext_heap (k0 := k0) (n := n) (hn := hn) e, stk_get, List.getElem?_append_left (by omega)]
      · subst h2
        rw [Lay.ext_heap (a := a) (by simp), upd_same, ← hl]
        simp
      · have hlen : (hs ++ [a]).length = hs.length + 1 := by simp
        rw [Lay.ext_ge (by omega), upd_ne _ _ (by simp), List.getElem?_eq_none (by simp; omega)]
        have : Blk.stack (k0 + n + (j - (hs ++ [a]).length)) = (Lay.ext k0 n hs hn).blk (n + (j - 1)) := by
          rw [Lay.ext_ge (by omega)]; congr 1; omega
        rw [this, stk_get, List.getElem?_eq_none (by omega)]
  · obtain ⟨h1, h2⟩ := Lay.ext_mem hb
    rw [upd_ne _ _ (h1 a (by simp))]
    refine stk_old fun i hc => ?_
    rcases Lay.ext_cases (hn := hn) (k0 := k0) (n := n) i with ⟨j, hj, e⟩ | ⟨a', ha', e⟩
    · exact h2 j hj (hc.trans e)
    · exact h1 a' (by simp [ha']) (hc.trans e)

/-- The end of the function: the heap blocks have been freed and the frame is given up. -/
theorem ext_drop {mem : Blk → Option (List Val)} (hs0 : ∀ j, m ((Lay.ext k0 n hs hn).blk j) = none)
    (h1 : ∀ a ∈ hs, mem (.heap a) = none) (h2 : ∀ x, (∀ a ∈ hs, x ≠ .heap a) → mem x = stkMem m (Lay.ext k0 n hs hn) ex x) : dropStack k0 mem = m := by
  funext b
  rcases stk_cases (k := Lay.ext k0 n hs hn) b with ⟨i, rfl⟩ | hb
  · rw [hs0]
    rcases Lay.ext_cases (hn := hn) (k0 := k0) (n := n) i with ⟨j, hj, e⟩ | ⟨a, ha, e⟩
    · rw [e]; simp only [dropStack]; rw [if_pos hj]
    · rw [e]; exact h1 a ha
  · obtain ⟨h3, h4⟩ := Lay.ext_mem hb
    have : mem b = m b := by rw [h2 b h3, stk_old hb]
    cases b with
    | stack j =>
      simp only [dropStack]
      rw [if_neg (fun hj => h4 j hj rfl), this]
    | _ => exact this

end

theorem drop_stkMem {k0 : Nat} (hs : ∀ j, m ((Lay.of k0).blk j) = none) : dropStack k0 (stkMem m (Lay.of k0) ex) = m := by
  rw [stkMem_ext0 (n := 0)]
  refine ext_drop (n := 0) (hs := []) (hn := List.nodup_nil) (ex := ex) (fun j => ?_) (by simp) fun _ _ => rfl
  have := Lay.ext_ge (k0 := k0) (n := 0) (hs := []) (hn := List.nodup_nil) (Nat.zero_le j)
  simp only [Nat.zero_add] at this
  rw [this, ← hs j, Lay.of_blk]
  simp

theorem fmem_stk (P : Ptr) (hP : ∀ b, P = some b → ∀ j, .heap b.id ≠ k.blk j) : fmem (stkMem m k ex) P = stkMem (fmem m P) k ex := by
  cases P with
  | none => rfl
  | some b => exact stk_heap _ (hP b rfl) _

theorem fmem_blk {P : Ptr} (hP : ∀ b, P = some b → ∀ j, .heap b.id ≠ k.blk j) (j : Nat) : fmem m P (k.blk j) = m (k.blk j) := by
  cases P with
  | none => rfl
  | some b => exact upd_ne _ _ (hP b rfl j).symm

/-- What the buffers of `write_signature` are, and what becomes of the heap when they are freed. -/
def SigFin (env : Env) (k : Lay) (s : Sched) (h h' : Heap) : Prop :=
  (env.smallStack = false ∧ h' = h ∧ ∃ k0, k = Lay.of k0) ∨
  (env.smallStack = true ∧ ∃ k0 a b hn h1 x y, k = Lay.ext k0 6 [a, b] hn ∧ free (some ⟨b, x⟩) s h = .ok ((), h1) ∧ free (some ⟨a, y⟩) s h1 = .ok ((), h'))

/-- encode.c:574-580 -/
theorem wp_sigExitA (env : Env) (fuel d : Nat) {B P : Blk} {alg : Int} {kl ki : Nat} {v11 : Val} {rest : List Val} {r : Val} {S : Ptr} {md : Mode}
    {h' : Heap} {R : Ctl → St → Prop} {K : Stmt} (hmd : md = .run ∨ md = .label "exit") (hk : k.pre.length ≤ ex.length)
    (hS : ∀ b, S = some b → ∀ j, .heap b.id ≠ k.blk j) (h0 : ex[0]? = some [ptrVal S]) (h3 : ∃ l, ex[3]? = some l ∧ l.length = 4)
    (h4 : ∃ v, ex[4]? = some [v]) (h5 : ∃ v, ex[5]? = some [v]) (h7 : ∃ l, ex[ki]? = some l ∧ l.length = 8192) (hki : 6 ≤ ki)
    (hf : free S s heap = .ok ((), h'))
    (hq : ∀ ex', ex'.length = ex.length → WP (exec (cx env fuel (d + 1)) K .run) s ⟨.ptr (some (B, 0)) :: .ptr (some (P, 0)) :: r :: .int alg :: loc k 0 ::
        loc k 1 :: loc k 2 :: .int kl :: loc k 3 :: loc k 4 :: loc k 5 :: v11 :: loc k ki :: rest, h', stkMem (fmem m S) k ex', k + ex.length⟩ R) :
    WP (exec (cx env fuel (d + 1)) (pre sigExit K) md) s ⟨.ptr (some (B, 0)) :: .ptr (some (P, 0)) :: r :: .int alg :: loc k 0 ::
        loc k 1 :: loc k 2 :: .int kl :: loc k 3 :: loc k 4 :: loc k 5 :: v11 :: loc k ki :: rest, heap, stkMem m k ex, k + ex.length⟩ R := by
  obtain ⟨pk, h3, hpk⟩ := h3
  obtain ⟨v4, h4⟩ := h4
  obtain ⟨v5, h5⟩ := h5
  obtain ⟨key, h7, hkey⟩ := h7
  unfold sigExit
  rw [wp_pre]
  have hlab : ∀ (st : St) (R : Ctl → St → Prop), R (.next .run) st → WP (exec (cx env fuel (d + 1)) (.label "exit") md) s st R := by
    intro st R h
    rcases hmd with rfl | rfl
    · xi []; exact h
    · xi []; exact h
  refine hlab _ _ ?_
  rw [then_next]
  xp
  refine wp_zero env fuel (d + 1) (i := ki) (n := 8192) h7 hkey (by decide) ?_
  xp
  refine wp_drbgFree env fuel (d + 1) (i := 5) (l := [v5]) (by rw [List.getElem?_set_ne (by omega)]; exact h5) rfl ?_
  xp
  refine wp_entropyFree env fuel (d + 1) (i := 4) (l := [v4]) (by rw [List.getElem?_set_ne (by omega), List.getElem?_set_ne (by omega)]; exact h4) rfl ?_
  xp
  refine wp_pkFree env fuel (d + 1) (i := 3) (l := pk)
    (by rw [List.getElem?_set_ne (by omega), List.getElem?_set_ne (by omega), List.getElem?_set_ne (by omega)]; exact h3) hpk ?_
  xp
  refine wp_getStk env fuel (d + 1) (i := 0) (l := []) (v := ptrVal S) (v' := ptrVal S)
    (by rw [List.getElem?_set_ne (by omega), List.getElem?_set_ne (by omega), List.getElem?_set_ne (by omega), List.getElem?_set_ne (by omega)]; exact h0)
    (by cases S <;> rfl) ?_
  xp
  refine wp_l8freeP env fuel d hf ?_ ?_
  · intro j hj
    exact stk_top (by simpa using hk) j (by simpa using hj)
  rw [then_next, wp_pre0]
  simp only
  rw [fmem_stk _ hS]
  exact hq _ (by simp)

/-- encode.c:574-586 -/
theorem wp_sigExit (env : Env) (fuel d : Nat) {B P : Blk} {alg : Int} {kl : Nat} {rest : List Val} {r : Val} {S : Ptr} {md : Mode}
    {h1 h' heap0 : Heap} {fr0 : List Val} {mem0 : Blk → Option (List Val)} {Q : Val → St → Prop} (hmd : md = .run ∨ md = .label "exit")
    (hk : k.pre.length ≤ ex.length) (hS : ∀ b, S = some b → ∀ j, .heap b.id ≠ k.blk j)
    (hs : ∀ j, m (k.blk j) = none) (h0 : ex[0]? = some [ptrVal S]) (h3 : ∃ l, ex[3]? = some l ∧ l.length = 4)
    (h4 : ∃ v, ex[4]? = some [v]) (h5 : ∃ v, ex[5]? = some [v]) (h7 : ∃ l, ex[7]? = some l ∧ l.length = 8192)
    (hf : free S s heap = .ok ((), h1)) (hfin : SigFin env k s h1 h') (hq : Q r ⟨fr0, h', fmem m S, k.base⟩) :
    WP (exec (cx env fuel (d + 1)) (pre sigExit (pre (sigFree env.smallStack) (.ret (.loc 2)))) md) s
      ⟨sigFr B P k r alg kl rest, heap, stkMem m k ex, k + ex.length⟩ (Return ⟨fr0, heap0, mem0, k.base⟩ Q) := by
  unfold sigFr
  refine wp_sigExitA env fuel d hmd hk hS h0 h3 h4 h5 h7 (by decide) hf fun ex' hex' => ?_
  have hs' : ∀ j, fmem m S (k.blk j) = none := fun j => by rw [fmem_blk hS]; exact hs j
  rcases hfin with ⟨hss, rfl, k0, rfl⟩ | ⟨hss, k0, a, b, hn, h2, x, y, rfl, f1, f2⟩
  · rw [hss]
    simp only [sigFree, Bool.false_eq_true, if_false]
    xp
    rw [show (Lay.of k0).base = k0 from rfl, drop_stkMem hs']
    exact hq
  · rw [hss]
    have e6 : loc (Lay.ext k0 6 [a, b] hn) 6 = ptrVal (some ⟨a, y⟩) := by
      show Val.ptr (some (_, 0)) = _
      rw [Lay.ext_heap (n := 6) (i := 0) (a := a) rfl]; rfl
    have e7 : loc (Lay.ext k0 6 [a, b] hn) 7 = ptrVal (some ⟨b, x⟩) := by
      show Val.ptr (some (_, 0)) = _
      rw [Lay.ext_heap (n := 6) (i := 1) (a := b) rfl]; rfl
    rw [e6, e7]
    simp only [sigFree, if_true]
    have htop : ∀ j, Lay.ext k0 6 [a, b] hn + ex.length ≤ j → stkMem (fmem m S) (Lay.ext k0 6 [a, b] hn) ex' (.stack j) = none := fun j hj =>
      stk_top (by rw [hex']; exact hk) j (by rw [hex']; exact hj)
    xp
    refine wp_l8freeP env fuel d f1 htop ?_
    xp
    refine wp_l8freeP env fuel d f2 (fun j hj => by simp only [fmem_stack]; exact htop j hj) ?_
    xp
    have e : dropStack k0 (fmem (fmem (stkMem (fmem m S) (Lay.ext k0 6 [a, b] hn) ex') (some ⟨b, x⟩)) (some ⟨a, y⟩)) = fmem m S := by
      refine ext_drop (hn := hn) (ex := ex') hs' ?_ ?_
      · intro c hc
        simp only [fmem]
        by_cases hca : c = a
        · subst hca; exact upd_same _ _ _
        · rw [upd_ne _ _ (by simpa using hca)]
          have : c = b := by simpa [hca] using hc
          subst this
          exact upd_same _ _ _
      · intro z hz
        simp only [fmem]
        rw [upd_ne _ _ (hz a (by simp)), upd_ne _ _ (hz b (by simp))]
    rw [show (Lay.ext k0 6 [a, b] hn).base = k0 from rfl] at hq ⊢
    rw [e]
    exact hq

/-- The memory without the local objects. -/
def Lay.drop (k : Lay) (mem : Blk → Option (List Val)) (b : Blk) : Option (List Val) := if k.idx b = none then mem b else none

theorem drop_old {mem : Blk → Option (List Val)} {b : Blk} (h : ∀ j, b ≠ k.blk j) : k.drop mem b = mem b := by
  rw [Lay.drop, if_pos (k.idx_none h)]

theorem drop_none (mem : Blk → Option (List Val)) (j : Nat) : k.drop mem (k.blk j) = none := by
  rw [Lay.drop, if_neg (by rw [k.idx_blk]; simp)]

theorem stk_frame {mem' : Blk → Option (List Val)} {B : Blk} {bid : Nat} (hf : Frame (stkMem m k ex) mem' B bid) (hB : ∀ j, B ≠ k.blk j)
    (hb : ∀ j, .heap bid ≠ k.blk j) : mem' = stkMem (k.drop mem') k ex := by
  refine stk_ext (fun i => ?_) fun b hb => (drop_old hb).symm
  rw [hf _ (hB i).symm (hb i).symm, stk_get]

theorem drop_frame {mem' : Blk → Option (List Val)} {B : Blk} {bid : Nat} (hf : Frame (stkMem m k ex) mem' B bid)
    (hs : ∀ j, m (k.blk j) = none) : Frame m (k.drop mem') B bid := by
  intro x h1 h2
  have e := hf x h1 h2
  rcases stk_cases (k := k) x with ⟨j, rfl⟩ | hx
  · rw [drop_none, hs]
  · rw [drop_old hx, e, stk_old hx]

theorem drop_buf {mem : Blk → Option (List Val)} {B : Blk} {bid cap : Nat} {sb : Bytes} (h : BufAt mem B bid cap sb) (hB : ∀ j, B ≠ k.blk j)
    (hb : ∀ j, .heap bid ≠ k.blk j) : BufAt (k.drop mem) B bid cap sb := by
  obtain ⟨ho, hne, hcl, ⟨g, h1⟩, rest, h2⟩ := h
  exact ⟨ho, hne, hcl, ⟨g, (drop_old hB).trans h1⟩, rest, (drop_old hb).trans h2⟩

/-- encode.c:562-573, 580: what the model does with a signature. -/
def sigRest (sb sig : Bytes) : M (Nat × Bytes) :=
  if sig.length = 0 then pure (L8W8JWT_SIGNATURE_CREATION_FAILURE, sb)
  else do
    let seg ← base64Encode true (some sig) sig.length false false
    if seg.rc ≠ L8W8JWT_SUCCESS then pure (L8W8JWT_BASE64_FAILURE, sb)
    else do
      let ptr := seg.out.getD none
      let mem ← M.lift (deref ptr.bytes)
      let text ← M.lift (rdN mem (seg.len.getD 0))
      let sb ← push 1024 sb (str ".")
      let sb ← push 1024 sb text
      free ptr
      pure (L8W8JWT_SUCCESS, sb)

theorem set_self {l : List (List Val)} {i : Nat} {a : List Val} (h : l[i]? = some a) : l.set i a = l := by
  apply List.ext_getElem?
  intro j
  rw [List.getElem?_set]
  split
  · rename_i e
    subst e
    rw [h]
    split
    · rfl
    · rename_i hl; rw [List.getElem?_eq_none (by omega)] at h; cases h
  · rfl

/-- encode.c:555-586 -/
theorem wp_sigEnd (env : Env) (fuel d : Nat) {B P : Blk} {bid : Nat} {sb sb' sig : Bytes} {alg : Int} {kl : Nat} {rest : List Val} {r : Val} {pad : Bytes}
    {h1 h' heap0 : Heap} {fr0 : List Val} {mem0 : Blk → Option (List Val)} {Q : Val → St → Prop} {rc : Nat}
    (hs : ∀ j, m (k.blk j) = none) (hh : NewHeap m k heap) (hk8 : k.pre.length ≤ 8)
    (hbuf : BufAt m B bid 1024 sb) (hB : ∀ j, B ≠ k.blk j) (hb : ∀ j, .heap bid ≠ k.blk j) (hex : SigEx ex)
    (h2 : ex[2]? = some [.int sig.length]) (h6 : ex[6]? = some (cells (sig ++ pad))) (hl : sig.length ≤ 4096) (hfu : 4096 < fuel)
    (hr : sigRest sb sig s heap = .ok ((rc, sb'), h1)) (hfin : SigFin env k s h1 h')
    (hq : ∀ mem', BufAt mem' B bid 1024 sb' → Frame m mem' B bid → sb'.length ≤ sb.length + 10000 → Q (.int rc) ⟨fr0, h', mem', k.base⟩) :
    WP (exec (cx env fuel (d + 1)) (sigEnd env.smallStack) .run) s ⟨sigFr B P k r alg kl rest, heap, stkMem m k ex, k + ex.length⟩
      (Return ⟨fr0, heap0, mem0, k.base⟩ Q) := by
  have hle : k.pre.length ≤ ex.length := by
    obtain ⟨l, hl, -⟩ := hex.key
    rcases Nat.lt_or_ge 7 ex.length with h | h
    · omega
    · rw [List.getElem?_eq_none h] at hl; cases hl
  unfold sigEnd sigTail sigRest at *
  rw [wp_pre]
  refine wp_orElse ?_
  unfold sigFr
  xp
  refine wp_getStk env fuel (d + 1) h2 (asTy_u64 _ (by omega)) ?_
  xp
  by_cases h0 : sig.length = 0
  · rw [if_pos h0] at hr
    obtain ⟨e, rfl⟩ := M.pure_inv hr
    cases e
    refine test_true (by rw [truth_ofBool]; simpa using h0) ?_
    rw [then_next, skip_pre (by rfl)]
    exact wp_sigExit env fuel d (S := none) (.inr rfl) hle (by simp) hs hex.sig hex.pk hex.entropy hex.drbg hex.key rfl hfin (hq _ hbuf Frame.refl (Nat.le_add_right _ _))
  rw [if_neg h0] at hr
  obtain ⟨o, hp1, eb, hr⟩ := M.bind_inv hr
  refine test_false (by rw [truth_ofBool]; simpa using h0) ?_
  rw [then_next, wp_pre]
  xp
  refine wp_getStk env fuel (d + 1) h2 (asTy_u64 _ (by omega)) ?_
  xp
  rw [cx_fun _ _ _ (fn := l8w8jwt_base64_encode) rfl]
  have e := base64_encode_text env fuel d s ⟨sigFr B P k r alg kl rest, heap, stkMem m k ex, k + ex.length⟩
    ⟨fun j hj => stk_top hle j hj, fun i hi => (stk_old (hh i hi).2).trans (hh i hi).1⟩ 1 (loc k 6) (loc k 0) (loc k 1) (some (sig ++ pad)) sig.length false false
    (pts_stk h6) ⟨0, k.blk 0, 0, [.ptr none], rfl, k.blk_own _, (stk_get 0).trans hex.sig, rfl⟩
    ⟨0, k.blk 1, 0, [.int 0], rfl, k.blk_own _, (stk_get 1).trans hex.sigLen, rfl⟩ (by simp [Sep, Val.blk]) (by simp [Sep, Val.blk])
    (by omega) o hp1 (by rw [b64_take _ _ _ (by simp)]; simpa using eb) (by omega)
  refine (Eq.mpr (wp_of_eq e) ?_ : WP _ s _ _)
  have hx3 : ∀ i v w, ((ex.set 0 v).set 1 w)[i + 2]? = ex[i + 2]? := by
    intro i v w
    rw [List.getElem?_set_ne (by omega), List.getElem?_set_ne (by omega)]
  rcases b64_inv (by omega) eb with ⟨hrc, hlen, hout, hk⟩ | ⟨t, len, rfl, rfl, hm1, hm2, hm3⟩
  · rw [if_pos hrc] at hr
    obtain ⟨e, rfl⟩ := M.pure_inv hr
    cases e
    have hmem : bufMem (stkMem m k ex) (loc k 0) (loc k 1) (b64OutSize sig.length) o = stkMem m k (ex.set 0 [.ptr none]) := by
      rcases hout with ho | ho
      · simp only [bufMem, ho, hlen, Option.toList, List.map_nil, wr_nil]
        rw [set_self hex.sig]
      · simp only [bufMem, ho, hlen, Option.toList, List.map_nil, wr_nil, newBlk, ptrVal]
        exact wr_stk hex.sig _
    rw [hmem, set_self hex.sig]
    unfold sigFr
    xp
    refine wp_failIf (r := o.rc) rfl (fun h => absurd h (by omega)) fun _ => ?_
    rw [then_next, skip_pre (by rfl)]
    exact wp_sigExit env fuel d (S := none) (.inr rfl) hle (by simp) hs hex.sig hex.pk hex.entropy hex.drbg hex.key rfl hfin (hq _ hbuf Frame.refl (Nat.le_add_right _ _))
  have hmem : bufMem (stkMem m k ex) (loc k 0) (loc k 1) (b64OutSize sig.length) ⟨0, some (some ⟨heap.tick, t⟩), some len⟩ =
      stkMem (upd m (.heap heap.tick) (some (cells t ++ List.replicate (b64OutSize sig.length - t.length) .undef))) k
        ((ex.set 0 [.ptr (some (.heap heap.tick, 0))]).set 1 [.int len]) := by
    simp only [bufMem, Option.toList, List.map_cons, List.map_nil, newBlk, ptrVal]
    rw [wr_stk hex.sig, stk_heap _ (hh _ (Nat.le_refl _)).2, wr_stk (l := [.int 0])]
    · rfl
    · rw [List.getElem?_set_ne (by decide)]; exact hex.sigLen
  rw [hmem]
  have hlen0 : 2 ≤ ex.length := by
    rcases Nat.lt_or_ge ex.length 2 with h | h
    · have := hex.sigLen; rw [List.getElem?_eq_none (by omega)] at this; cases this
    · exact h
  generalize hex1 : (ex.set 0 [.ptr (some (.heap heap.tick, 0))]).set 1 [.int len] = ex1
  have hl1 : ex1.length = ex.length := by rw [← hex1]; simp
  have g0 : ex1[0]? = some [.ptr (some (.heap heap.tick, 0))] := by
    rw [← hex1, List.getElem?_set_ne (by decide), List.getElem?_set_self (by omega)]
  have g1 : ex1[1]? = some [.int len] := by
    rw [← hex1, List.getElem?_set_self (by simp; omega)]
  have gi : ∀ i, ex1[i + 2]? = ex[i + 2]? := by rw [← hex1]; exact fun i => hx3 i _ _
  have hbid : bid ≠ heap.tick := by
    obtain ⟨-, -, -, -, rest, h⟩ := hbuf
    rintro rfl
    rw [(hh _ (Nat.le_refl _)).1] at h; cases h
  have hBt : B ≠ .heap heap.tick := by
    obtain ⟨-, -, -, ⟨g, h⟩, -⟩ := hbuf
    rintro rfl
    rw [(hh _ (Nat.le_refl _)).1] at h; cases h
  generalize hm1' : upd m (.heap heap.tick) (some (cells t ++ List.replicate (b64OutSize sig.length - t.length) .undef)) = m1
  have hbuf1 : BufAt m1 B bid 1024 sb := by rw [← hm1']; exact hbuf.upd hBt (by simpa using hbid)
  have hs1 : ∀ j, m1 (k.blk j) = none := fun j => by rw [← hm1', upd_ne _ _ ((hh _ (Nat.le_refl _)).2 j).symm]; exact hs j
  have hblk : m1 (.heap heap.tick) = some (cells t ++ List.replicate (b64OutSize sig.length - t.length) .undef) := by rw [← hm1', upd_same]
  simp only [L8W8JWT_SUCCESS, ne_eq, not_true_eq_false, if_false, Option.getD_some, Ptr.bytes, Option.map_some, deref] at hr
  obtain ⟨_, em, hr⟩ := M.liftBind_inv hr
  cases em
  obtain ⟨tx, etx, hr⟩ := M.liftBind_inv hr
  obtain ⟨-, rfl⟩ := rdN_inv etx
  obtain ⟨q1, k1, f1, hr⟩ := M.bind_inv hr
  obtain ⟨q2, k2, f2, hr⟩ := M.bind_inv hr
  obtain ⟨u, k3, f3, hr⟩ := M.bind_inv hr
  obtain ⟨e, rfl⟩ := M.pure_inv hr
  cases e
  unfold sigFr
  xp
  refine wp_failIf (r := 0) rfl (fun _ => ?_) fun h => absurd rfl h
  rw [then_next]
  rw [← hl1]
  xp
  refine wp_push env fuel (d + 1) (m := [46] ++ [0]) (n := 1) (buf := sb) (stk_buf hbuf1 hB hb) (fun _ => pts_lit _ _) (by simp) (by exact f1) ?_
  intro v1 mem1 hb1 hf1
  rw [stk_frame hf1 hB hb]
  have hd1 := drop_frame hf1 hs1
  have hb1' : BufAt (k.drop mem1) B bid 1024 q1 := drop_buf hb1 hB hb
  have hz1 : ∀ j, k.drop mem1 (k.blk j) = none := fun j => drop_none _ j
  generalize k.drop mem1 = m2 at hd1 hb1' hz1
  xp
  refine wp_getStk env fuel (d + 1) g0 (v' := .ptr (some (.heap heap.tick, 0))) rfl ?_
  xp
  refine wp_getStk env fuel (d + 1) g1 (asTy_u64 _ (by omega)) ?_
  xp
  have hblk2 : m2 (.heap heap.tick) = some (cells t ++ List.replicate (b64OutSize sig.length - t.length) .undef) := by
    rw [hd1 _ hBt.symm (by simpa using Ne.symm hbid)]; exact hblk
  refine wp_push env fuel (d + 1) (m := t ++ _) (n := len) (buf := q1) (stk_buf hb1' hB hb)
    (fun _ => ⟨.heap heap.tick, 0, _, rfl, (cont_own rfl).trans ((stk_old (hh _ (Nat.le_refl _)).2).trans hblk2), Nat.zero_le _, by rw [bytesFrom, List.drop_zero, toBytes_cells_append]⟩)
    (by simp; omega) (by rw [List.take_append_of_le_length hm2]; exact f2) ?_
  intro v2 mem2 hb2 hf2
  rw [stk_frame hf2 hB hb]
  have hd2 := drop_frame hf2 hz1
  have hb2' : BufAt (k.drop mem2) B bid 1024 sb' := drop_buf hb2 hB hb
  have hz2 : ∀ j, k.drop mem2 (k.blk j) = none := fun j => drop_none _ j
  generalize k.drop mem2 = m3 at hd2 hb2' hz2
  rw [then_next, wp_pre0]
  refine wp_sigExit env fuel d (S := some ⟨heap.tick, t⟩) (.inl rfl) (by rw [hl1]; exact hle) (by rintro b hb0; cases hb0; exact (hh _ (Nat.le_refl _)).2) hz2 g0 (by rw [gi 1]; exact hex.pk) (by rw [gi 2]; exact hex.entropy)
    (by rw [gi 3]; exact hex.drbg) (by rw [gi 5]; exact hex.key) f3 hfin (hq _ (hb2'.upd hBt (by simpa using hbid)) ?_ ?_)
  rotate_left
  · have p1 := push_length f1
    have p2 := push_length f2
    have p3 : (str ".").length = 1 := rfl
    have p4 := List.length_take_le len t
    omega
  intro x hx1 hx2
  by_cases hx : x = .heap heap.tick
  · subst hx
    rw [(hh _ (Nat.le_refl _)).1]
    exact upd_same _ _ _
  · show upd m3 (.heap heap.tick) none x = _
    rw [upd_ne _ _ hx, hd2 x hx1 hx2, hd1 x hx1 hx2, ← hm1', upd_ne _ _ hx]

theorem wp_memcpyStk (env : Env) (fuel d : Nat) {i n : Nat} {l : List Val} {v : Val} {b : Bytes} {Q : Val → St → Prop} {stk : Nat}
    (hp : Pts globs (stkMem m k ex) v (some b)) (hn : n ≤ b.length) (h : ex[i]? = some l) (hl : n ≤ l.length)
    (hq : Q (loc k i) ⟨fr, heap, stkMem m k (ex.set i (poke l 0 (cells (b.take n)))), stk⟩) :
    WP ((cx env fuel d).call "memcpy" [loc k i, v, .int n]) s ⟨fr, heap, stkMem m k ex, stk⟩ Q := by
  rw [cx_lib _ _ _ rfl]
  show WP (do let x ← readCells (lctx env) v (n : Int).toNat; let _ ← writeCells (lctx env) (loc k i) x; pure (loc k i)) s _ Q
  refine ⟨_, _, ?_, hq⟩
  have hlen : (cells (b.take n)).length = n := by rw [cells_length, List.length_take, Nat.min_eq_left hn]
  rw [X.bind_apply, Int.toNat_natCast, readCells_pts (st := ⟨fr, heap, stkMem m k ex, stk⟩) hp hn]
  simp only [X.bind_apply]
  rw [write_stk h (by rw [hlen]; exact hl)]
  rfl

theorem loadKey_inv {key : Option Bytes} {n : Nat} {x : Bytes × Nat} (h : loadKey key n = .ok x) :
    ∃ mem, key = some mem ∧ n ≤ mem.length ∧ n ≤ 8192 ∧ x.1 = mem.take n ++ (List.replicate 8192 0).drop n ∧
      ∃ c, x.1[n - 1]? = some c ∧ x.2 = if c ≠ 0 then n + 1 else n := by
  unfold loadKey at h
  obtain ⟨mem, e1, h⟩ := res_inv h
  obtain ⟨kb, e2, h⟩ := res_inv h
  obtain ⟨buf, e3, h⟩ := res_inv h
  obtain ⟨c, e4, h⟩ := res_inv h
  cases h
  obtain ⟨hn, rfl⟩ := rdN_inv e2
  obtain ⟨hl, rfl⟩ := wrAt_inv e3
  rw [List.length_take, Nat.min_eq_left hn] at hl
  rw [List.length_replicate] at hl
  refine ⟨mem, deref_inv e1, hn, hl, ?_, c, ?_, rfl⟩
  · simp only [List.length_take, Nat.min_eq_left hn]
  · unfold rd at e4
    split at e4
    · rename_i b hb
      cases e4
      exact hb
    · cases e4

theorem wp_setI {c : Ctx} (i : Nat) (n : Int) (st : St) (Q : Ctl → St → Prop) :
    WP (exec c (.exp (.set i (.num n))) .run) s st Q = Q (.next .run) { st with fr := st.fr.set i (.int n) } := by
  xi []

theorem poke_key (b : Bytes) (n N : Nat) (hn : n ≤ b.length) :
    poke (zeros N) 0 (cells (b.take n)) = cells (b.take n ++ (List.replicate N 0).drop n) := by
  rw [zeros, poke_zero, List.length_take, Nat.min_eq_left hn]

/-- The frame of `write_signature` after its buffers have been set up. -/
def sigFr0 (B P : Blk) (k : Lay) (alg : Int) (v11 v12 : Val) (rest : List Val) : List Val :=
  .ptr (some (B, 0)) :: .ptr (some (P, 0)) :: .undef :: .int alg :: loc k 0 :: loc k 1 :: loc k 2 :: .int 0 :: loc k 3 :: loc k 4 :: loc k 5 ::
    v11 :: v12 :: .undef :: .undef :: .undef :: .undef :: .undef :: .undef :: .undef :: .undef :: .undef :: rest

/-- encode.c:249-587, for the buffers on the stack and for those on the heap. -/
theorem wp_sigMain (env : Env) (fuel d : Nat) {B P : Blk} {bid : Nat} {sb sb' : Bytes} {p : EncParams} {w : EncPtrs}
    {base : Blk → Option (List Val)} {h1 h' heap0 : Heap} {mem0 : Blk → Option (List Val)} {Q : Val → St → Prop} {rc : Nat}
    (hc : SigCtx m k B P bid sb p w base) (hs : ∀ j, m (k.blk j) = none) (hh : NewHeap m k heap)
    (hn0 : 0 < p.secretKeyLength) (hfu : 10000 < fuel)
    (hr : writeSignatureBody env sb p s heap = .ok ((rc, sb'), h1)) (hfin : SigFin env k s h1 h')
    (hq : ∀ mem', BufAt mem' B bid 1024 sb' → Frame m mem' B bid → sb'.length ≤ sb.length + 10000 → Q (.int rc) ⟨fr, h', mem', k.base⟩) :
    WP (exec (cx env fuel (d + 1)) (pre sigSeed (.seq (failIf 500 "exit") (pre sigMd (.seq (.switch (.loc 3) (signSw env.eddsa)) (sigEnd env.smallStack))))) .run) s
      ⟨sigFr0 B P k p.alg (loc k 6) (loc k 7) (edVar env.eddsa), heap,
        stkMem m k [[.ptr none], [.int 0], [.int 0], pkNone, [.int 0], [.int 0], zeros 4096, zeros 8192], k + 8⟩
      (Return ⟨fr, heap0, mem0, k.base⟩ Q) := by
  unfold writeSignatureBody at hr
  obtain ⟨⟨key, kl⟩, ek, hr⟩ := M.liftBind_inv hr
  obtain ⟨mem, hkey, hkl, hk8, hbuf, c, hc1, hc2⟩ := loadKey_inv ek
  simp only at hbuf hc1 hc2 hr
  obtain ⟨sr, es, hr⟩ := M.liftBind_inv hr
  have hkeyl : key.length = 8192 := by
    rw [hbuf, List.length_append, List.length_take, List.length_drop, List.length_replicate]; omega
  unfold sigSeed sigFr0
  xp
  refine hc.wpPar env fuel (d + 1) (i := 17) (by decide) rfl (asTy_u64 _ hc.enc.keyLength) ?_
  have hkm := fun ex => (hc.encAt (ex := ex)).key
  rw [hkey] at hkm
  have hnul := nul_some (hkm [])
  rw [hnul] at hkm
  have hasT : asTy env.charSigned .ptr w.key = .ok w.key := by
    obtain ⟨b, o, l, hw, -⟩ := hkm []
    rw [hw]; rfl
  xp
  refine hc.wpPar env fuel (d + 1) (i := 16) (by decide) rfl hasT ?_
  xp
  refine wp_memcpyStk env fuel (d + 1) (i := 7) (l := zeros 8192) (hkm _) hkl rfl (by rw [zeros_length]; exact hk8) ?_
  rw [poke_key mem p.secretKeyLength _ hkl, ← hbuf]
  show Then _ _ s _ _ ⟨.ptr (some (B, 0)) :: .ptr (some (P, 0)) :: .undef :: .int p.alg :: loc k 0 :: loc k 1 :: loc k 2 :: .int p.secretKeyLength :: loc k 3 :: loc k 4 :: loc k 5 ::
    loc k 6 :: loc k 7 :: .undef :: .undef :: .undef :: .undef :: .undef :: .undef :: .undef :: .undef :: .undef :: edVar env.eddsa, heap,
    stkMem m k [[.ptr none], [.int 0], [.int 0], pkNone, [.int 0], [.int 0], zeros 4096, cells key], k + 8⟩
  xp
  have hidx : (cells key)[((p.secretKeyLength : Int) - 1).toNat]? = some (.int c.toNat) := by
    rw [show ((p.secretKeyLength : Int) - 1).toNat = p.secretKeyLength - 1 by omega]
    simp [cells, hc1]
  refine wp_ld (c := cx env fuel (d + 1)) (b := k.blk 7) (l := cells key) ((cont_own (k.blk_own 7)).trans (stk_get 7)) (by omega) hidx (asTy_u8 _ c.toNat_lt) ?_
  xp
  have hkl2 : ((p.secretKeyLength : Int) + if ¬ (c.toNat : Int) = 0 then 1 else 0) = (kl : Nat) := by
    rw [hc2]
    have : (c = 0) ↔ c.toNat = 0 := ⟨fun h => by rw [h]; rfl, fun h => UInt8.toNat_inj.1 h⟩
    by_cases h : c = 0
    · have h' := this.1 h
      have e1 : ¬ c ≠ 0 := fun g => g h
      have e2 : ¬ ¬ (c.toNat : Int) = 0 := by omega
      rw [if_neg e1, if_neg e2]; omega
    · have e2 : ¬ (c.toNat : Int) = 0 := fun h' => h (this.2 (by omega))
      rw [if_pos h, if_pos e2]; omega
  have hkl3 : 1 ≤ kl ∧ kl ≤ 8193 := by
    rw [hc2]; split <;> omega
  rw [hkl2]
  have hexit : ∀ rc' rest ex, rc = rc' → sb' = sb → h1 = heap → SigEx ex →
      WP (exec (cx env fuel (d + 1)) (sigEnd env.smallStack) (.label "exit")) s ⟨sigFr B P k (.int rc') p.alg kl rest, heap, stkMem m k ex, k + ex.length⟩
        (Return ⟨fr, heap0, mem0, k.base⟩ Q) := by
    intro rc' rest ex e1 e2 e3 hex
    subst e1 e2 e3
    unfold sigEnd
    rw [skip_pre (by rfl)]
    have hle : k.pre.length ≤ ex.length := by
      have := hc.lay
      obtain ⟨l, hl, -⟩ := hex.key
      rcases Nat.lt_or_ge 7 ex.length with h | h
      · omega
      · rw [List.getElem?_eq_none h] at hl; cases hl
    exact wp_sigExit env fuel d (S := none) (.inr rfl) hle (by simp) hs hex.sig hex.pk hex.entropy hex.drbg hex.key rfl hfin (hq _ hc.buf Frame.refl (Nat.le_add_right _ _))
  have herr : ∀ rc', sr = .error rc' → rc = rc' ∧ sb' = sb ∧ h1 = heap := by
    intro rc' e
    subst e
    obtain ⟨e, rfl⟩ := M.pure_inv hr
    cases e
    exact ⟨rfl, rfl, rfl⟩
  refine wp_seed env fuel (d + 1) (i := 5) (j := 4) (n := 24) (by rfl) (by rfl) (pts_lit _ _) (by decide) (fun hseed => ?_) fun hseed => ?_
  · have : sr = .error 500 := by
      unfold signSwitch at es
      simp only [hseed, Bool.not_false, if_true] at es
      cases es; rfl
    obtain ⟨rfl, rfl, rfl⟩ := herr _ this
    rw [then_next, wp_pre0, wp_seq]
    refine wp_failIf (r := -1) rfl (fun h => absurd h (by decide)) fun _ => ?_
    rw [then_next, skip_pre (by rfl), wp_seq, skip_stmt (by rfl), then_next]
    exact hexit 500 _ (ex := [[.ptr none], [.int 0], [.int 0], pkNone, [.int 0], [.int 0], zeros 4096, cells key])
      rfl rfl rfl ⟨rfl, rfl, ⟨_, rfl⟩, ⟨_, rfl, rfl⟩, ⟨_, rfl⟩, ⟨_, rfl⟩, ⟨_, rfl, by rw [cells_length, hkeyl]⟩⟩
  rw [then_next, wp_pre0, wp_seq]
  refine wp_failIf (r := 0) rfl (fun _ => ?_) fun h => absurd rfl h
  unfold sigMd
  rw [then_next, wp_pre]
  refine wp_declStk (n := 8) (by have := hc.lay; simp; omega) rfl ?_
  xp
  refine wp_putStk env fuel (d + 1) (i := 8) (u := .undef) (v' := .int 0) rfl rfl ?_
  rw [then_next, wp_pre]
  refine wp_declStk (n := 9) (by have := hc.lay; simp; omega) rfl ?_
  xp
  refine wp_putStk env fuel (d + 1) (i := 9) (u := .undef) (v' := .int 0) rfl rfl ?_
  rw [then_next, wp_pre]
  refine wp_declStk (n := 10) (by have := hc.lay; simp; omega) rfl ?_
  xp
  refine wp_putStk env fuel (d + 1) (i := 10) (u := .undef) (v' := .ptr none) rfl rfl ?_
  have hsw : ∀ a b c0, (∀ md, encMd p.alg = some md → a = .int md.len ∧ b = .int (mdCode md) ∧ c0 = mdInfo (some md)) →
      WP (exec (cx env fuel (d + 1)) (.seq (.declMem 16 64 [.int 0] (.int 0)) ((Stmt.switch (Expr.loc 3) (signSw env.eddsa)).seq (sigEnd env.smallStack))) .run) s
        ⟨sigFr B P k (.int 0) p.alg kl (loc k 8 :: loc k 9 :: loc k 10 :: .undef :: .undef :: .undef :: .undef :: .undef :: .undef :: edVar env.eddsa), heap,
          stkMem m k [[.ptr none], [.int 0], [.int 0], pkNone, [.int 0], [.int 1], zeros 4096, cells key, [a], [b], [c0]], k + 11⟩
        (Return ⟨fr, heap0, mem0, k.base⟩ Q) := by
    intro a b c0 hmd
    rw [wp_seq]
    refine wp_declStk (n := 11) (by have := hc.lay; simp; omega) rfl ?_
    rw [zeros_decl 63, then_next]
    refine wp_sigSwitch env fuel d hc hh hkeyl hkl3.1 (by omega) (fun h => ⟨_, by rw [h]; rfl⟩) (by omega) hmd hseed es ?_ ?_
    · intro rc' e rest ex hex
      obtain ⟨e1, e2, e3⟩ := herr _ e
      exact hexit rc' rest ex e1 e2 e3 hex
    · intro sig e r rest ex pad hex g2 g6 hl
      subst e
      exact wp_sigEnd env fuel d hs hh hc.lay hc.buf hc.Bs hc.bs hex g2 g6 hl (by omega) hr hfin hq
  xp
  refine wp_mdInfo env fuel d (f := "encode_c_md_info_from_alg") (i := 10) (a := 9) (b := 8) (congrArg some md_info_enc) (by have := hc.lay; simp; omega) rfl rfl rfl (by decide) (by decide) (by decide)
    (fun hn => ?_) fun md hm => ?_
  · rw [then_next]
    refine hsw (.int 0) (.int 0) (.ptr none) fun md h => ?_
    rw [encMd_sel, hn] at h; cases h
  · rw [then_next]
    refine hsw _ _ _ fun md' h => ?_
    rw [encMd_sel, hm] at h
    cases h
    exact ⟨rfl, rfl, rfl⟩


/-- encode.c:220-233 -/
theorem wp_sigInit (env : Env) (fuel d : Nat) {k : Nat} {B P : Blk} {bid : Nat} {sb : Bytes} {p : EncParams} {w : EncPtrs}
    {base : Blk → Option (List Val)} {T : Stmt} {R : Ctl → St → Prop} {rest : List Val}
    (hc : SigCtx m (Lay.of k) B P bid sb p w base) (hs : ∀ j, m ((Lay.of k).blk j) = none)
    (hq : WP (exec (cx env fuel (d + 1)) T .run) s ⟨sigFr0 B P (Lay.of k) p.alg .undef .undef rest, heap,
      stkMem m (Lay.of k) [[.ptr none], [.int 0], [.int 0], pkNone, [.int 0], [.int 0]], Lay.of k + 6⟩ R) :
    WP (exec (cx env fuel (d + 1)) (pre sigInit T) .run) s ⟨.ptr (some (B, 0)) :: .ptr (some (P, 0)) :: .undef :: .undef :: .undef :: .undef :: .undef ::
      .undef :: .undef :: .undef :: .undef :: .undef :: .undef :: .undef :: .undef :: .undef :: .undef :: .undef :: .undef :: .undef :: .undef :: .undef ::
      rest, heap, m, k⟩ R := by
  unfold sigInit
  have hm0 : m = stkMem m (Lay.of k) [] := stk_nil hs
  conv => arg 3; rw [hm0]
  xp
  refine hc.wpAlg env fuel (d + 1) ?_
  rw [then_next, wp_pre]
  refine wp_declStk (n := 0) (Nat.zero_le _) rfl ?_
  xp
  refine wp_putStk env fuel (d + 1) (i := 0) (u := .undef) (v' := .ptr none) rfl rfl ?_
  rw [then_next, wp_pre]
  refine wp_declStk (n := 1) (Nat.zero_le _) rfl ?_
  xp
  refine wp_putStk env fuel (d + 1) (i := 1) (u := .undef) (v' := .int 0) rfl rfl ?_
  rw [then_next, wp_pre]
  refine wp_declStk (n := 2) (Nat.zero_le _) rfl ?_
  xp
  refine wp_putStk env fuel (d + 1) (i := 2) (u := .undef) (v' := .int 0) rfl rfl ?_
  rw [then_next, wp_pre, wp_setI, then_next, wp_pre]
  refine wp_declStk (n := 3) (Nat.zero_le _) rfl ?_
  rw [then_next, wp_pre]
  refine wp_declStk (n := 4) (Nat.zero_le _) rfl ?_
  rw [then_next, wp_pre]
  refine wp_declStk (n := 5) (Nat.zero_le _) rfl ?_
  xp
  refine wp_pkInit env fuel (d + 1) (i := 3) (l := List.replicate 4 .undef) rfl rfl ?_
  xp
  refine wp_entropyInit env fuel (d + 1) (i := 4) (l := [.undef]) rfl rfl ?_
  xp
  refine wp_drbgInit env fuel (d + 1) (i := 5) (l := [.undef]) rfl rfl ?_
  rw [then_next]
  show WP _ s ⟨_, heap, stkMem m (Lay.of k) [[.ptr none], [.int 0], [.int 0], pkNone, [.int 0], [.int 0]], Lay.of k + 6⟩ _
  exact hq

theorem SigCtx.ext {k n : Nat} {hs : List Nat} {hn : hs.Nodup} {B P : Blk} {bid : Nat} {sb : Bytes} {p : EncParams} {w : EncPtrs}
    {base : Blk → Option (List Val)} (hc : SigCtx m (Lay.of k) B P bid sb p w base) (hl : n + hs.length ≤ 8)
    (hm : ∀ a ∈ hs, m (.heap a) = none) : SigCtx m (Lay.ext k n hs hn) B P bid sb p w base := by
  have key : ∀ b, (∀ j, b ≠ (Lay.of k).blk j) → m b ≠ none → ∀ j, b ≠ (Lay.ext k n hs hn).blk j := by
    intro b h1 h2 j e
    rcases Lay.ext_cases (hn := hn) (k0 := k) (n := n) j with ⟨i, hi, e'⟩ | ⟨a, ha, e'⟩
    · exact h1 (i - k) (by rw [e, e', Lay.of_blk]; congr 1; omega)
    · exact h2 (by rw [e, e']; exact hm a ha)
  obtain ⟨-, -, -, ⟨g, hB⟩, rest, hb⟩ := hc.buf
  refine ⟨hc.buf, key _ hc.Bs (by rw [hB]; simp), key _ hc.bs (by rw [hb]; simp), by rw [Lay.ext_len]; exact hl, hc.over, fun j => ?_, hc.enc, hc.len⟩
  cases e : base ((Lay.ext k n hs hn).blk j) with
  | none => rfl
  | some l =>
    exact absurd rfl (key ((Lay.ext k n hs hn).blk j) (fun i hi => by rw [hi, hc.stk] at e; cases e) (by rw [hc.over _ _ e]; simp) j)

theorem ext_none {k n : Nat} {hs : List Nat} {hn : hs.Nodup} (h0 : ∀ j, m ((Lay.of k).blk j) = none) (hm : ∀ a ∈ hs, m (.heap a) = none) (j : Nat) :
    m ((Lay.ext k n hs hn).blk j) = none := by
  rcases Lay.ext_cases (hn := hn) (k0 := k) (n := n) j with ⟨i, hi, e⟩ | ⟨a, ha, e⟩
  · rw [e, ← h0 (i - k), Lay.of_blk]; congr 2; omega
  · rw [e]; exact hm a ha

theorem ext_new {k n : Nat} {hs : List Nat} {hn : hs.Nodup} (hh : ∀ i, heap.tick ≤ i → m (.heap i) = none) (hl : ∀ a ∈ hs, a < heap.tick) :
    NewHeap m (Lay.ext k n hs hn) heap := by
  refine fun i hi => ⟨hh i hi, fun j e => ?_⟩
  rcases Lay.ext_cases (hn := hn) (k0 := k) (n := n) j with ⟨i', hi', e'⟩ | ⟨a, ha, e'⟩
  · rw [e'] at e; cases e
  · rw [e'] at e; cases e; exact absurd (hl _ ha) (by omega)

theorem loc_ext {k n i : Nat} {hs : List Nat} {hn : hs.Nodup} (h : i < n) : loc (Lay.of k) i = loc (Lay.ext k n hs hn) i := by
  unfold loc
  rw [Lay.of_blk, Lay.ext_lt h]

theorem zeros_calloc (n : Nat) : List.replicate n (Val.int 0) = zeros n := by simp [zeros, cells]

/-- encode.c:219-587 -/
theorem wp_write_signature (env : Env) (fuel d : Nat) {k : Nat} {B P : Blk} {bid : Nat} {sb sb' : Bytes} {p : EncParams} {w : EncPtrs}
    {base : Blk → Option (List Val)} {h' : Heap} {Q : Val → St → Prop} {rc : Nat}
    (hc : SigCtx m (Lay.of k) B P bid sb p w base) (hs : ∀ j, m ((Lay.of k).blk j) = none) (hh : ∀ i, heap.tick ≤ i → m (.heap i) = none)
    (hn0 : 0 < p.secretKeyLength) (hfu : 10000 < fuel)
    (hr : writeSignature env sb p s heap = .ok ((rc, sb'), h'))
    (hq : ∀ mem', BufAt mem' B bid 1024 sb' → Frame m mem' B bid → sb'.length ≤ sb.length + 10000 → Q (.int rc) ⟨fr, h', mem', k⟩) :
    WP ((cx env fuel (d + 2)).call "write_signature" [.ptr (some (B, 0)), .ptr (some (P, 0))]) s ⟨fr, heap, m, k⟩ Q := by
  unfold writeSignature at hr
  rw [cx_fun _ _ _ (fn := sigFun env.eddsa env.smallStack) rfl]
  apply wp_runFun
  rw [sigFun_body, sigFun_slots]
  simp only [List.replicate, List.cons_append, List.nil_append]
  refine wp_sigInit env fuel d hc hs ?_
  cases hss : env.smallStack with
  | false =>
    rw [hss, if_neg (by simp)] at hr
    simp only [sigBufs, Bool.false_eq_true, if_false]
    rw [wp_pre]
    unfold sigFr0
    refine wp_declStk (n := 6) (Nat.zero_le _) rfl ?_
    rw [zeros_decl 4095, then_next, wp_pre]
    refine wp_declStk (n := 7) (Nat.zero_le _) rfl ?_
    rw [zeros_decl 8191, then_next, wp_pre0, ← hss]
    refine wp_sigMain env fuel d hc hs (fun i hi => ⟨hh i hi, fun j e => ?_⟩) hn0 hfu hr (.inl ⟨hss, rfl, k, rfl⟩) hq
    rw [Lay.of_blk] at e; cases e
  | true =>
    rw [hss, if_pos rfl] at hr
    simp only [sigBufs, if_true]
    unfold sigFr0
    rw [stkMem_ext0 (n := 6)]
    obtain ⟨pa, ha, e1, hr⟩ := M.bind_inv hr
    obtain ⟨pb, hb, e2, hr⟩ := M.bind_inv hr
    obtain ⟨rr, h1, e3, hr⟩ := M.bind_inv hr
    obtain ⟨_, e4, hr⟩ := M.liftBind_inv hr
    obtain ⟨_, h2, e5, hr⟩ := M.bind_inv hr
    obtain ⟨_, h3, e6, hr⟩ := M.bind_inv hr
    obtain ⟨er, rfl⟩ := M.pure_inv hr
    subst er
    unfold alloc at e1 e2
    xp
    refine wp_calloc env fuel (d + 1) ?_
    simp only
    split at e1
    · rename_i hfa
      rw [if_pos hfa]
      cases e1
      xp
      refine wp_calloc env fuel (d + 1) ?_
      simp only at e2 ⊢
      split at e2
      · rename_i hfb
        cases e2
        cases e4
      · rename_i hfb
        rw [if_neg hfb]
        cases e2
        rw [show (1 : Int).toNat * (8192 : Int).toNat = 8192 from rfl, zeros_calloc, stkMem_push (a := heap.tick + 1) (by simp) (by rfl)]
        have hm : ∀ a ∈ [] ++ [heap.tick + 1], m (.heap a) = none := by
          intro a ha
          simp only [List.nil_append, List.mem_singleton] at ha
          subst ha
          exact hh _ (by omega)
        rw [then_next, wp_pre]
        refine wp_orElse ?_
        xp
        refine test_true rfl ?_
        rw [then_next, skip_pre (by rfl), skip_pre (by rfl), wp_seq, skip_stmt (by rfl), then_next, skip_pre (by rfl), wp_seq, skip_stmt (by rfl), then_next]
        unfold sigEnd
        rw [skip_pre (by rfl)]
        rw [if_pos (by simp)] at e3
        obtain ⟨e3, rfl⟩ := M.pure_inv e3
        cases e3
        have hl6 : loc (Lay.ext k 6 ([] ++ [heap.tick + 1]) (by simp)) 6 = .ptr (some (.heap (heap.tick + 1), 0)) := by
          show Val.ptr (some (_, 0)) = _
          rw [Lay.ext_heap (n := 6) (i := 0) rfl]
        have := wp_sigExitA env fuel d (k := Lay.ext k 6 ([] ++ [heap.tick + 1]) (by simp)) (m := m) (S := none) (ki := 6) (B := B) (P := P) (alg := p.alg) (kl := 0)
          (r := .int 300) (v11 := .ptr none) (rest := .undef :: .undef :: .undef :: .undef :: .undef :: .undef :: .undef :: .undef :: .undef :: edVar env.eddsa)
          (K := pre (sigFree true) (.ret (.loc 2))) (R := Return ⟨fr, heap, m, k⟩ Q) (s := s)
          (heap := ⟨heap.tick + 1 + 1, (heap.tick + 1) :: heap.live⟩)
          (ex := [[.ptr none], [.int 0], [.int 0], pkNone, [.int 0], [.int 0]] ++ [zeros 8192]) (.inr rfl) (by rw [Lay.ext_len]; simp) (by simp) rfl ⟨_, rfl, rfl⟩ ⟨_, rfl⟩
          ⟨_, rfl⟩ ⟨_, rfl, zeros_length _⟩ (by omega) rfl fun ex' hex' => ?_
        · rw [hl6, ← loc_ext (by omega), ← loc_ext (by omega), ← loc_ext (by omega), ← loc_ext (by omega), ← loc_ext (by omega), ← loc_ext (by omega)] at this
          exact this
        · rw [hl6]
          simp only [sigFree, if_true]
          xp
          refine wp_l8freeP env fuel d (P := some ⟨heap.tick + 1, List.replicate 8192 0⟩) e5 (fun j hj => stk_top (by rw [hex', Lay.ext_len]; simp) j (by rw [hex']; exact hj)) ?_
          xp
          refine wp_l8freeP env fuel d (P := none) e6 (fun j hj => by
            simp only [fmem_stack]; exact stk_top (by rw [hex', Lay.ext_len]; simp) j (by rw [hex']; exact hj)) ?_
          xp
          have e : dropStack k (fmem (fmem (stkMem (fmem m none) (Lay.ext k 6 ([] ++ [heap.tick + 1]) (by simp)) ex') (some ⟨heap.tick + 1, List.replicate 8192 0⟩)) none) = m := by
            refine ext_drop (n := 6) (hn := by simp) (ex := ex') (ext_none hs hm) ?_ ?_
            · intro c hc
              have : c = heap.tick + 1 := by simpa using hc
              subst this
              exact upd_same _ _ _
            · intro z hz
              exact upd_ne _ _ (hz _ (by simp))
          rw [e]
          exact hq _ hc.buf Frame.refl (Nat.le_add_right _ _)
    · rename_i hfa
      rw [if_neg hfa]
      cases e1
      rw [show (1 : Int).toNat * (4096 : Int).toNat = 4096 from rfl, zeros_calloc, stkMem_push (a := heap.tick) (by simp) (by rfl)]
      xp
      refine wp_calloc env fuel (d + 1) ?_
      simp only at e2 ⊢
      split at e2
      · rename_i hfb
        cases e2
        cases e4
      · rename_i hfb
        rw [if_neg hfb]
        cases e2
        rw [show (1 : Int).toNat * (8192 : Int).toNat = 8192 from rfl, zeros_calloc, stkMem_push (a := heap.tick + 1) (by simp) (by rfl)]
        have hm : ∀ a ∈ [] ++ [heap.tick] ++ [heap.tick + 1], m (.heap a) = none := by
          intro a ha
          have : a = heap.tick ∨ a = heap.tick + 1 := by simpa using ha
          exact hh _ (by omega)
        rw [then_next, wp_pre]
        refine wp_orElse ?_
        xp
        refine test_false rfl ?_
        rw [then_next, wp_pre0, ← hss]
        have hl6 : loc (Lay.ext k 6 [heap.tick, heap.tick + 1] (by simp)) 6 = .ptr (some (.heap heap.tick, 0)) := by
          show Val.ptr (some (_, 0)) = _
          rw [Lay.ext_heap (n := 6) (i := 0) rfl]
        have hl7 : loc (Lay.ext k 6 [heap.tick, heap.tick + 1] (by simp)) 7 = .ptr (some (.heap (heap.tick + 1), 0)) := by
          show Val.ptr (some (_, 0)) = _
          rw [Lay.ext_heap (n := 6) (i := 1) rfl]
        rw [if_neg (fun h => Bool.noConfusion h)] at e3
        have hlt : ∀ a ∈ [] ++ [heap.tick] ++ [heap.tick + 1], a < heap.tick + 1 + 1 := by
          intro a ha
          have : a = heap.tick ∨ a = heap.tick + 1 := by simpa using ha
          omega
        have := wp_sigMain env fuel d (k := Lay.ext k 6 ([] ++ [heap.tick] ++ [heap.tick + 1]) (by simp)) (mem0 := m) (heap0 := heap) (hr := e3) (hc.ext (by simp) hm) (ext_none hs hm)
          (ext_new (fun i hi => hh i (by have := Nat.le_trans (Nat.le_add_right _ 2) hi; exact this)) hlt) hn0 hfu
          (.inr ⟨hss, k, _, _, _, _, _, _, rfl, e5, e6⟩) hq
        unfold sigFr0 at this
        simp only [List.nil_append, List.singleton_append] at this ⊢
        rw [hl6, hl7, ← loc_ext (by omega), ← loc_ext (by omega), ← loc_ext (by omega), ← loc_ext (by omega), ← loc_ext (by omega), ← loc_ext (by omega)] at this
        exact this

end

end L8w8jwt.C
