import Verif.C.SegmentsProof
import Verif.Proofs.Jsmn
/-!
# The text of src/decode.c:228-371 does what Model/Decode.lean says
-/

namespace L8w8jwt.C

open Src

/-! ## How many tokens there can be -/

/-- A token that is being read. -/
def pend : JMode → Nat
  | .main => 0
  | .str _ _ => 1
  | .prim _ => 1

theorem jAlloc_none (st : JState) (t : Tok) : jAlloc none st t = .ok { st with count := st.count + 1 } := rfl

theorem jMain_bound {c : UInt8} {pos : Nat} {m : JMode} {st st' : JState} (h : jMain none c pos st = .ok (m, st')) :
    st'.count + pend m ≤ st.count + 1 := by
  unfold jMain at h
  simp only [jAlloc_none] at h
  repeat' split at h
  all_goals cases h
  all_goals simp [pend]

theorem jMain_stop {c : UInt8} {pos : Nat} {m : JMode} {st st' : JState} (hc : primStop c = true) (h : jMain none c pos st = .ok (m, st')) :
    st'.count + pend m ≤ st.count := by
  unfold jMain at h
  simp only [primStop, Bool.or_eq_true, decide_eq_true_eq] at hc
  rcases hc with ((((((hc | hc) | hc) | hc) | hc) | hc) | hc) | hc <;> subst hc <;> simp at h <;> obtain ⟨rfl, rfl⟩ := h <;> simp [pend]

theorem jStep_bound {c : UInt8} {pos : Nat} {m m' : JMode} {st st' : JState} (h : jStep none c pos m st = .ok (m', st')) :
    st'.count + pend m' ≤ st.count + pend m + 1 := by
  unfold jStep at h
  simp only [jAlloc_none] at h
  split at h
  · exact jMain_bound h
  · repeat' split at h
    all_goals cases h
    all_goals simp [pend]
    all_goals omega
  · repeat' split at h
    all_goals cases h
    all_goals simp [pend]
    all_goals omega
  · repeat' split at h
    all_goals cases h
    all_goals simp [pend]
    all_goals omega
  · split at h
    · rename_i hc
      have := jMain_stop hc h
      simp only [pend] at this ⊢
      omega
    · split at h
      · cases h
      · cases h
        simp [pend]

theorem jEnd_bound {pos : Nat} {nul : Bool} {m : JMode} {st st' : JState} (h : jEnd none pos nul m st = .ok st') :
    st'.count ≤ st.count + pend m := by
  unfold jEnd at h
  simp only [jAlloc_none] at h
  repeat' split at h
  all_goals cases h
  all_goals simp [pend]

theorem jLoop_bound (t : Bytes) : ∀ (pos : Nat) (m : JMode) (st st' : JState), jLoop none t pos m st = .ok st' →
    st'.count ≤ st.count + pend m + t.length := by
  induction t with
  | nil =>
    intro pos m st st' h
    exact jEnd_bound h
  | cons c t ih =>
    intro pos m st st' h
    unfold jLoop at h
    split at h
    · have := jEnd_bound h
      omega
    · cases h1 : jStep none c pos m st with
      | error e => rw [h1] at h; cases h
      | ok x =>
        obtain ⟨m', st1⟩ := x
        rw [h1] at h
        have a := ih _ _ _ _ h
        have b := jStep_bound h1
        simp only [List.length_cons]
        omega

/-- There are at most as many tokens as characters. -/
theorem jsmnCount_le {t : Bytes} {n : Nat} (h : jsmnCount t = .ok n) : n ≤ t.length := by
  unfold jsmnCount at h
  cases h1 : jLoop none t 0 .main ⟨0, []⟩ with
  | error e => rw [h1] at h; cases h
  | ok st =>
    rw [h1] at h
    cases h
    have := jLoop_bound t _ _ _ _ h1
    simpa [pend] using this

/-! ## The token array -/

/-- The content of slot `i` of the token array. -/
def slot (env : Env) (toks : List Tok) (i : Nat) : Tok := toks.getD i (env.garbage i)

/-- The cells of an array of `cap` tokens. -/
structure TokArr (env : Env) (l : List Val) (toks : List Tok) (cap : Nat) : Prop where
  len : l.length = 4 * cap
  le : toks.length ≤ cap
  get : ∀ i, i < cap → (l.drop (4 * i)).take 4 = tokCells (slot env toks i)

theorem TokArr.cell {env : Env} {l : List Val} {toks : List Tok} {cap : Nat} (h : TokArr env l toks cap) {i k : Nat} (hi : i < cap) (hk : k < 4) :
    l[4 * i + k]? = (tokCells (slot env toks i))[k]? := by
  rw [← h.get i hi, List.getElem?_take_of_lt hk, List.getElem?_drop]

theorem flatMap_tok_length (toks : List Tok) : (toks.flatMap tokCells).length = 4 * toks.length := by
  induction toks with
  | nil => rfl
  | cons t ts ih => rw [List.flatMap_cons, List.length_append, ih]; simp [tokCells]; omega

theorem flatMap_tok_get (toks : List Tok) : ∀ (rest : List Val) (i : Nat) (t : Tok), toks[i]? = some t →
    ((toks.flatMap tokCells ++ rest).drop (4 * i)).take 4 = tokCells t := by
  induction toks with
  | nil => intro rest i t h; simp at h
  | cons a ts ih =>
    intro rest i t h
    cases i with
    | zero =>
      simp at h
      subst h
      simp [tokCells]
    | succ i =>
      have e : 4 * (i + 1) = (tokCells a).length + 4 * i := by simp [tokCells]; omega
      rw [List.flatMap_cons, List.append_assoc, e, ← List.drop_drop]
      simp only [List.drop_left]
      exact ih rest i t (by simpa using h)

theorem garb_get (env : Env) {i n : Nat} (h : 4 * i + 4 ≤ n) :
    (((List.range n).map (garbCell env)).drop (4 * i)).take 4 = tokCells (env.garbage i) := by
  apply List.ext_getElem?
  intro k
  by_cases hk : k < 4
  · rw [List.getElem?_take_of_lt hk, List.getElem?_drop, List.getElem?_map, List.getElem?_range (by omega)]
    have e1 : (4 * i + k) / 4 = i := by omega
    have e2 : (4 * i + k) % 4 = k := by omega
    have : k = 0 ∨ k = 1 ∨ k = 2 ∨ k = 3 := by omega
    simp only [Option.map_some, garbCell, e1, e2]
    rcases this with rfl | rfl | rfl | rfl <;> simp [tokCells]
  · rw [List.getElem?_eq_none (by simp; omega), List.getElem?_eq_none (by simp [tokCells]; omega)]

/-- The array on the stack after `jsmn_parse`. -/
theorem tokArr_stack (env : Env) {toks : List Tok} (h : toks.length ≤ 64) :
    TokArr env (poke ((List.range 256).map (garbCell env)) 0 (toks.flatMap tokCells)) toks 64 := by
  have hl := flatMap_tok_length toks
  refine ⟨?_, h, ?_⟩
  · rw [poke_length (by rw [hl]; simp; omega)]
    simp
  · intro i hi
    simp only [poke, List.take_zero, List.nil_append, Nat.zero_add]
    by_cases hi' : i < toks.length
    · rw [flatMap_tok_get toks _ i toks[i] (by simp [hi'])]
      simp [slot, hi']
    · rw [List.drop_append, List.drop_eq_nil_of_le (by omega), hl, List.nil_append, List.drop_drop]
      rw [show 4 * toks.length + (4 * i - 4 * toks.length) = 4 * i by omega, garb_get env (by omega)]
      simp [slot, List.getElem?_eq_none (show toks.length ≤ i by omega)]

/-- The array on the heap after `jsmn_parse`. -/
theorem tokArr_heap (env : Env) (toks : List Tok) : TokArr env (toks.flatMap tokCells) toks toks.length := by
  refine ⟨flatMap_tok_length toks, Nat.le_refl _, ?_⟩
  intro i hi
  have := flatMap_tok_get toks [] i toks[i] (by simp [hi])
  rw [List.append_nil] at this
  rw [this]
  simp [slot, hi]

/-! ## Skipping what is nested in a value -/

/-- The ends of all slots that are read are numbers of type `int`. -/
def IntEnds (env : Env) (toks : List Tok) : Prop := ∀ i, -2147483648 ≤ (slot env toks i).end_ ∧ (slot env toks i).end_ < 2147483648

theorem loops_eq : l8w8jwt_parse_claims.loop2 = l8w8jwt_parse_claims.loop1 := rfl

theorem drop_cons_lt {α : Type} {l : List α} {n : Nat} {a : α} {t : List α} (h : l.drop n = a :: t) : n < l.length ∧ l[n]? = some a ∧ l.drop (n + 1) = t := by
  have hlt : n < l.length := by
    rcases Nat.lt_or_ge n l.length with h' | h'
    · exact h'
    · rw [List.drop_eq_nil_of_le h'] at h; cases h
  refine ⟨hlt, ?_, ?_⟩
  · have := congrArg (·[0]?) h
    simpa [List.getElem?_drop] using this
  · have := congrArg (List.drop 1) h
    simpa [List.drop_drop] using this

theorem slot_lt {env : Env} {toks : List Tok} {i : Nat} {t : Tok} (h : toks[i]? = some t) : slot env toks i = t := by
  simp [slot, h]

theorem slot_ge {env : Env} {toks : List Tok} {i : Nat} (h : toks.length ≤ i) : slot env toks i = env.garbage i := by
  simp [slot, List.getElem?_eq_none h]

/-- src/decode.c:295-298, 306-309 -/
theorem wp_skipNested (env : Env) (fuel d : Nat) {s : Sched} {heap : Heap} {mem : Blk → Option (List Val)} {stk : Nat} {T V : Blk} {l : List Val}
    {toks : List Tok} {cap i : Nat} {vend : Int} {vt vs : Val} {vz : Val} {x0 x1 x2 x3 x5 x8 x9 x11 x12 : Val}
    (hT : cont globs mem T = some l) (ha : TokArr env l toks cap) (hV : cont globs mem V = some [vt, vs, .int vend, vz])
    (hve : -2147483648 ≤ vend ∧ vend < 2147483648) (he : IntEnds env toks) (hi : i < toks.length) (hc : cap < 4294967296)
    (hf : toks.length < fuel) {rest : List Tok}
    (hr : skipNested env cap toks.length vend (toks.drop (i + 1)) = .ok rest) {Q : Ctl → St → Prop}
    (hq : ∀ i', i ≤ i' → i' ≤ toks.length → rest = toks.drop (i' + 1) → Q (.next .run) ⟨[x0, x1, x2, x3, .int toks.length, x5, .ptr (some (T, 0)), .int i', x8, x9,
      .ptr (some (V, 0)), x11, x12], heap, mem, stk⟩) :
    WP (exec (cx env fuel d) l8w8jwt_parse_claims.loop1 .run) s ⟨[x0, x1, x2, x3, .int toks.length, x5, .ptr (some (T, 0)), .int i, x8, x9,
      .ptr (some (V, 0)), x11, x12], heap, mem, stk⟩ Q := by
  unfold l8w8jwt_parse_claims.loop1
  have hle := ha.le
  have hlen := ha.len
  refine wp_loop (fun m st' => ∃ i', i ≤ i' ∧ i' ≤ toks.length ∧ m = toks.length - i' ∧
      st' = ⟨[x0, x1, x2, x3, .int toks.length, x5, .ptr (some (T, 0)), .int i', x8, x9, .ptr (some (V, 0)), x11, x12], heap, mem, stk⟩ ∧
      (if i' < toks.length then skipNested env cap toks.length vend (toks.drop (i' + 1)) = .ok rest
        else rest = [] ∧ i' + 1 < cap)) (toks.length - i) ?_ ⟨i, Nat.le_refl _, by omega, rfl, rfl, by rw [if_pos hi]; exact hr⟩ (by rw [cx_fuel]; omega)
  rintro k st ⟨i', h1, h2, rfl, rfl, hm⟩
  have hcap : i' + 1 < cap := by
    by_cases hlt : i' < toks.length
    · rw [if_pos hlt] at hm
      by_cases hlt' : i' + 1 < toks.length
      · omega
      · rw [List.drop_eq_nil_of_le (by omega)] at hm
        unfold skipNested slackSlot at hm
        by_cases hg : toks.length < cap
        · omega
        · rw [if_neg hg] at hm; cases hm
    · rw [if_neg hlt] at hm
      exact hm.2
  xs []
  refine wp_paddV (c := cx env fuel d) (by exact hT) (by omega) (by omega) ?_
  xs []
  refine wp_paddV (c := cx env fuel d) (by exact hT) (by omega) (by omega) ?_
  have hcell := ha.cell hcap (k := 2) (by omega)
  have hend := he (i' + 1)
  refine wp_loadV (c := cx env fuel d) (by exact hT) (by omega) ?_ (asTy_i32 _ hend.1 hend.2) ?_
  · have : (0 + 4 * ((i' : Int) + 1) + 2).toNat = 4 * (i' + 1) + 2 := by omega
    rw [this, hcell]
    rfl
  xs []
  refine wp_ld (c := cx env fuel d) (by exact hV) (by omega) (by rfl) (asTy_i32 _ hve.1 hve.2) ?_
  by_cases hle' : (slot env toks (i' + 1)).end_ ≤ vend
  · by_cases hlt : i' < toks.length
    · rw [if_pos hlt] at hm
      xs [hle']
      refine ⟨toks.length - (i' + 1), by omega, i' + 1, by omega, by omega, rfl, rfl, ?_⟩
      by_cases hlt' : i' + 1 < toks.length
      · rw [if_pos hlt']
        cases hdr : toks.drop (i' + 1) with
        | nil => have := congrArg List.length hdr; simp at this; omega
        | cons t ts =>
          obtain ⟨-, ht, hts⟩ := drop_cons_lt hdr
          rw [hdr, skipNested, if_pos (by rw [← slot_lt (env := env) ht]; exact hle')] at hm
          rw [hts]
          exact hm
      · rw [if_neg hlt']
        rw [List.drop_eq_nil_of_le (by omega)] at hm
        have e : i' + 1 = toks.length := by omega
        rw [slot_ge (by omega), e] at hle'
        unfold skipNested slackSlot at hm
        rw [if_pos (by omega)] at hm
        simp only [bind, Except.bind] at hm
        rw [if_pos hle'] at hm
        by_cases hg : toks.length + 1 < cap
        · rw [if_pos hg] at hm
          cases hm
          exact ⟨rfl, by omega⟩
        · rw [if_neg hg] at hm; cases hm
    · rw [if_neg hlt] at hm
      xs [hle']
      refine hq i' h1 h2 ?_
      rw [hm.1, List.drop_eq_nil_of_le (by omega)]
  · xs [hle']
    refine hq i' h1 h2 ?_
    by_cases hlt : i' < toks.length
    · rw [if_pos hlt] at hm
      cases hdr : toks.drop (i' + 1) with
      | nil =>
        have : toks.length ≤ i' + 1 := by simpa using hdr
        rw [hdr] at hm
        rw [slot_ge this, show i' + 1 = toks.length by omega] at hle'
        unfold skipNested slackSlot at hm
        rw [if_pos (by omega)] at hm
        simp only [bind, Except.bind] at hm
        rw [if_neg hle'] at hm
        cases hm; rfl
      | cons t ts =>
        obtain ⟨-, ht, hts⟩ := drop_cons_lt hdr
        rw [hdr, skipNested, if_neg (by rw [← slot_lt (env := env) ht]; exact hle')] at hm
        cases hm; rfl
    · rw [if_neg hlt] at hm
      rw [hm.1, List.drop_eq_nil_of_le (by omega)]

/-! ## The type of a value -/

/-- src/decode.c:279-352: the `switch`, and what follows it in the loop. -/
def pcSwitch : Stmt × Stmt :=
  match l8w8jwt_parse_claims.loop3 with
  | .loop _ (.seq _ (.seq _ (.seq _ (.seq _ (.seq _ (.seq _ (.seq a b))))))) _ => (a, b)
  | _ => (.skip, .skip)

theorem wp_checknum (env : Env) (fuel d : Nat) {p : Val} {m t : Bytes} {n : Int} {s : Sched} {st : St} {Q : Val → St → Prop}
    (h : Pts globs st.mem p (some m)) (hr : rdN m n.toNat = .ok t) (hq : Q (.int (env.checknum t)) st) :
    WP ((cx env fuel d).call "checknum" [p, .int n]) s st Q := by
  obtain ⟨b, o, l, rfl, h, ho, hl⟩ := h
  rw [cx_lib _ _ _ rfl]
  refine ⟨_, _, ?_, hq⟩
  show (do
      let b ← bytesAt (lctx env) (.ptr (some (b, (o : Int))))
      let t ← X.res (rdN b n.toNat)
      pure (Val.int (env.checknum t)) : X Val) s st = _
  have e1 : bytesAt (lctx env) (.ptr (some (b, (o : Int)))) s st = .ok (m, st) := by
    simp only [bytesAt, X.bind_apply, obj_cont (c := lctx env) h]
    rw [if_neg (by omega), X.pure_apply, ← hl]
    rfl
  simp only [X.bind_apply, e1, hr, X.res_ok, X.pure_apply]

/-- A pointer into the text of the JSON. -/
theorem pts_at {mem : Blk → Option (List Val)} {b : Blk} {o : Nat} {l : List Val} {m : Bytes} (h : cont globs mem b = some l)
    (hm : bytesFrom l o = m) (ho : o ≤ l.length) {k : Int} (h0 : 0 ≤ k) (hk : k ≤ m.length) :
    (o : Int) + k ≤ l.length ∧ Pts globs mem (.ptr (some (b, (o : Int) + k))) (some (at_ m k)) := by
  have := pts_drop (k := k.toNat) h hm ho (by omega)
  have e : ((o + k.toNat : Nat) : Int) = (o : Int) + k := by omega
  rw [e] at this
  refine ⟨?_, this⟩
  have := toBytes_length_le (l.drop o)
  rw [show toBytes (l.drop o) = m from hm] at this
  simp at this
  omega

theorem bytes_room {o : Nat} {l : List Val} {m : Bytes} (hm : bytesFrom l o = m) : m.length ≤ l.length - o := by
  have := toBytes_length_le (l.drop o)
  rw [show toBytes (l.drop o) = m from hm] at this
  simpa using this

theorem str_true : str "true" = [116, 114, 117, 101] := by decide
theorem str_false : str "false" = [102, 97, 108, 115, 101] := by decide
theorem str_null : str "null" = [110, 117, 108, 108] := by decide

theorem loop1_case {c : Ctx} {s : Sched} {st : St} (k : Int) (Q : Ctl → St → Prop) :
    WP (exec c l8w8jwt_parse_claims.loop1 (.case k)) s st Q = Q (.next (.case k)) st := jump_loop_case _ _ _ _ _ _ _ _
theorem loop1_dflt {c : Ctx} {s : Sched} {st : St} (Q : Ctl → St → Prop) :
    WP (exec c l8w8jwt_parse_claims.loop1 .dflt) s st Q = Q (.next .dflt) st := jump_loop_dflt _ _ _ _ _ _ _

theorem res_inv {α β : Type} {x : Res α} {f : α → Res β} {b : β} (h : (x >>= f) = .ok b) : ∃ a, x = .ok a ∧ f a = .ok b := by
  cases x with
  | error e => cases h
  | ok a => exact ⟨a, rfl, h⟩

theorem res_assoc {α β γ : Type} {x : Res α} {f : α → Res β} {g : β → Res γ} {b : γ} (h : ((x >>= f) >>= g) = .ok b) :
    (x >>= fun a => f a >>= g) = .ok b := by
  cases x with
  | error e => cases h
  | ok a => exact h

set_option hygiene false in
/-- The address of the value. -/
local macro "pcat" : tactic => `(tactic|
  (refine wp_ld (c := cx env fuel d) (v := .int value.start) (by exact hVc) (by omega) (by rfl) (asTy_i32 _ (by omega) (by omega)) ?_
   xs []
   refine wp_paddV (c := cx env fuel d) (by exact hJ) (by omega) (by omega) ?_
   xs []))

set_option hygiene false in
/-- The type is stored. -/
local macro "pcset" : tactic => `(tactic|
  (refine wp_paddV (c := cx env fuel d) (by exact hCc) (by omega) (by simp) ?_
   xs []
   refine wp_storeV hCo (by exact hC) (by omega) (by simp) (by rfl) ?_
   xs []
   exact store _ _ ⟨by decide, by decide⟩ rfl))

set_option hygiene false in
/-- The call of `checknum`. -/
local macro "pcnum" : tactic => `(tactic|
  (pcat
   cases htext : rdN (at_ jm value.start) (value.end_ - value.start).toNat with
   | error e => rw [htext] at hpr; cases hpr
   | ok text =>
     rw [htext] at hpr
     simp only at hpr
     refine wp_checknum env fuel d hpt (by first | exact htext | (rw [h4] at htext; exact htext)) ?_
     by_cases h1 : env.checknum text = 1
     · rw [if_pos h1] at hpr
       cases hpr
       have h1' : ((env.checknum text : Nat) : Int) = 1 := by omega
       xs [h1']
       pcset
     · rw [if_neg h1] at hpr
       by_cases h2 : env.checknum text = 2
       · rw [if_pos h2] at hpr
         cases hpr
         have h2' : ((env.checknum text : Nat) : Int) = 2 := by omega
         xs [h2']
         pcset
       · rw [if_neg h2] at hpr
         cases hpr
         xs [h1, h2]
         exact hq _))

/-- src/decode.c:279-352 -/
theorem wp_pcSwitch (env : Env) (fuel d : Nat) {s : Sched} {heap : Heap} {mem : Blk → Option (List Val)} {stk : Nat} {T J : Blk}
    {C V : Nat} {l lj : List Val} {jm : Bytes} {oj : Nat}
    {toks : List Tok} {cap i : Nat} {value : Tok} {x0 x2 x3 x5 x9 x11 x12 : Val} {c0 c1 c2 c3 c4 : Val}
    (hT : cont globs mem T = some l) (ha : TokArr env l toks cap) (hC : mem (.stack C) = some [c0, c1, c2, c3, c4])
    (hV : mem (.stack V) = some (tokCells value)) (hCV : C ≠ V) (hTC : T ≠ .stack C)
    (hJ : cont globs mem J = some lj) (hjm : bytesFrom lj oj = jm) (hoj : oj ≤ lj.length)
    (hvi : 0 ≤ value.start ∧ value.start ≤ value.end_ ∧ value.end_ ≤ jm.length ∧ value.end_ < 2147483648) (he : IntEnds env toks) (hi : i < toks.length) (hc : cap < 4294967296)
    (hf : toks.length < fuel) {ty : Option Int} {rest : List Tok}
    (hr : claimType env jm cap toks.length value (toks.drop (i + 1)) = .ok (ty, rest)) {Q : Ctl → St → Prop}
    (hq : match ty with
      | none => ∀ y11, Q (.next (.label "exit")) ⟨[x0, .ptr (some (J, (oj : Int))), x2, x3, .int 600, x5, .ptr (some (T, 0)), .int i, .ptr (some (.stack C, 0)), x9,
          .ptr (some (.stack V, 0)), y11, x12], heap, mem, stk⟩
      | some t => ∀ i' y11, i ≤ i' → i' ≤ toks.length → rest = toks.drop (i' + 1) → 0 ≤ t ∧ t ≤ 7 →
        Q (.next .run) ⟨[x0, .ptr (some (J, (oj : Int))), x2, x3, .int toks.length, x5, .ptr (some (T, 0)), .int i', .ptr (some (.stack C, 0)), x9,
          .ptr (some (.stack V, 0)), y11, x12], heap, upd mem (.stack C) (some [c0, c1, c2, c3, .int t]), stk⟩) :
    WP (exec (cx env fuel d) pcSwitch.1 .run) s ⟨[x0, .ptr (some (J, (oj : Int))), x2, x3, .int toks.length, x5, .ptr (some (T, 0)), .int i,
      .ptr (some (.stack C, 0)), x9, .ptr (some (.stack V, 0)), x11, x12], heap, mem, stk⟩ Q := by
  have hCo : (Blk.stack C).own = true := rfl
  have hCc : cont globs mem (.stack C) = some [c0, c1, c2, c3, c4] := hC
  have hVc : cont globs mem (.stack V) = some (tokCells value) := hV
  have hcode : 0 ≤ tokCode value.type ∧ tokCode value.type < 9 := by cases value.type <;> simp [tokCode]
  simp only [pcSwitch, l8w8jwt_parse_claims.loop3, loops_eq]
  xs []
  refine wp_loadV (c := cx env fuel d) (v := .int (tokCode value.type)) (w := .int (tokCode value.type)) (by exact hVc) (by omega) (by rfl) ?_ ?_
  · simp only [asTy]
    cases value.type <;> rfl
  have nested : ∀ {a : JType} (t : Int), value.type = a → 0 ≤ t ∧ t ≤ 7 →
      (do let rest ← skipNested env cap toks.length value.end_ (toks.drop (i + 1)); .ok (some t, rest) : Res (Option Int × List Tok)) = .ok (ty, rest) →
      ty = some t ∧ skipNested env cap toks.length value.end_ (toks.drop (i + 1)) = .ok rest := by
    intro a t _ _ h
    cases h1 : skipNested env cap toks.length value.end_ (toks.drop (i + 1)) with
    | error e => rw [h1] at h; cases h
    | ok x => rw [h1] at h; cases h; exact ⟨rfl, rfl⟩
  unfold claimType at hr
  cases hty : value.type with
  | undefined =>
    rw [hty] at hr
    cases hr
    simp only [tokCode]
    xs [↓loop1_case, ↓loop1_dflt]
    refine wp_paddV (c := cx env fuel d) (by exact hCc) (by omega) (by simp) ?_
    xs []
    refine wp_storeV hCo (w := .int 7) (by exact hC) (by omega) (by simp) (by rfl) ?_
    xs []
    exact hq i x11 (Nat.le_refl _) (by omega) rfl ⟨by decide, by decide⟩
  | string =>
    rw [hty] at hr
    cases hr
    simp only [tokCode]
    xs [↓loop1_case, ↓loop1_dflt]
    refine wp_paddV (c := cx env fuel d) (by exact hCc) (by omega) (by simp) ?_
    xs []
    refine wp_storeV hCo (w := .int 0) (by exact hC) (by omega) (by simp) (by rfl) ?_
    xs []
    exact hq i x11 (Nat.le_refl _) (by omega) rfl ⟨by decide, by decide⟩
  | object =>
    rw [hty] at hr
    obtain ⟨rfl, hsk⟩ := nested L8W8JWT_CLAIM_TYPE_OBJECT hty ⟨by decide, by decide⟩ hr
    simp only [tokCode]
    xs [↓loop1_case, ↓loop1_dflt]
    refine wp_paddV (c := cx env fuel d) (by exact hCc) (by omega) (by simp) ?_
    xs []
    refine wp_storeV hCo (w := .int 6) (by exact hC) (by omega) (by simp) (by rfl) ?_
    xs []
    refine wp_skipNested env fuel d (by rw [cont_upd hTC]; exact hT) ha (by rw [cont_upd (by simpa using hCV.symm)]; exact hVc) ⟨by omega, by omega⟩ he hi hc hf hsk ?_
    intro i' h1 h2 h3
    xs []
    exact hq i' x11 h1 h2 h3 ⟨by decide, by decide⟩
  | array =>
    rw [hty] at hr
    obtain ⟨rfl, hsk⟩ := nested L8W8JWT_CLAIM_TYPE_ARRAY hty ⟨by decide, by decide⟩ hr
    simp only [tokCode]
    xs [↓loop1_case, ↓loop1_dflt]
    refine wp_paddV (c := cx env fuel d) (by exact hCc) (by omega) (by simp) ?_
    xs []
    refine wp_storeV hCo (w := .int 5) (by exact hC) (by omega) (by simp) (by rfl) ?_
    xs []
    refine wp_skipNested env fuel d (by rw [cont_upd hTC]; exact hT) ha (by rw [cont_upd (by simpa using hCV.symm)]; exact hVc) ⟨by omega, by omega⟩ he hi hc hf hsk ?_
    intro i' h1 h2 h3
    xs []
    exact hq i' x11 h1 h2 h3 ⟨by decide, by decide⟩
  | other =>
    rw [hty] at hr
    cases hr
    simp only [tokCode]
    xs [↓loop1_case, ↓loop1_dflt]
    exact hq x11
  | primitive =>
    rw [hty] at hr
    obtain ⟨hpl, hpt⟩ := pts_at hJ hjm hoj (k := value.start) hvi.1 (by omega)
    obtain ⟨pt, hpr⟩ : ∃ pt, primType env jm value = .ok pt ∧ pt = ty ∧ rest = toks.drop (i + 1) := by
      cases h1 : primType env jm value with
      | error e => simp only [h1, bind, Except.bind] at hr; cases hr
      | ok x => simp only [h1, bind, Except.bind] at hr; cases hr; exact ⟨_, rfl, rfl, rfl⟩
    obtain ⟨hpr, rfl, rfl⟩ := hpr
    simp only [tokCode]
    xs [↓loop1_case, ↓loop1_dflt]
    refine wp_ld (c := cx env fuel d) (by exact hVc) (by omega) (by rfl) (asTy_i32 _ (by omega) (by omega)) ?_
    xs []
    refine wp_ld (c := cx env fuel d) (by exact hVc) (by omega) (by rfl) (asTy_i32 _ (by omega) (by omega)) ?_
    xs []
    have store : ∀ (t : Int) (y11 : Val), 0 ≤ t ∧ t ≤ 7 → pt = some t →
        Q (.next .run) ⟨[x0, .ptr (some (J, (oj : Int))), x2, x3, .int toks.length, x5, .ptr (some (T, 0)), .int i, .ptr (some (.stack C, 0)), x9,
          .ptr (some (.stack V, 0)), y11, x12], heap, upd mem (.stack C) (some [c0, c1, c2, c3, .int t]), stk⟩ := by
      rintro t y11 ht rfl
      exact hq i y11 (Nat.le_refl _) (by omega) rfl ht
    unfold primType at hpr
    simp only [str_true, str_false, str_null] at hpr
    by_cases h5 : value.end_ - value.start ≤ 5
    · rw [if_pos h5] at hpr
      obtain ⟨ra, hra, hpr⟩ : ∃ ra, strncmp (at_ jm value.start) ([116, 114, 117, 101] ++ [0]) 4 = .ok ra ∧ _ := res_inv (res_assoc hpr)
      xs [h5]
      pcat
      refine wp_strncmp env fuel d (n := 4) hpt (pts_lit _ _) (by omega) hra ?_
      by_cases ha0 : ra = 0
      · rw [if_pos ha0] at hpr
        cases hpr
        xs [ha0]
        pcset
      rw [if_neg ha0] at hpr
      obtain ⟨rb, hrb, hpr⟩ : ∃ rb, strncmp (at_ jm value.start) ([102, 97, 108, 115, 101] ++ [0]) 5 = .ok rb ∧ _ := res_inv (res_assoc hpr)
      xs [ha0]
      pcat
      refine wp_strncmp env fuel d (n := 5) hpt (pts_lit _ _) (by omega) hrb ?_
      by_cases hb0 : rb = 0
      · simp only [hb0, decide_true, bind, Except.bind, if_true] at hpr
        cases hpr
        xs [hb0]
        pcset
      simp only [hb0, decide_false, bind, Except.bind, Bool.false_eq_true, if_false] at hpr
      by_cases h4 : value.end_ - value.start = 4
      · rw [if_pos h4] at hpr
        cases hrn : strncmp (at_ jm value.start) ([110, 117, 108, 108] ++ [0]) 4 with
        | error e => rw [hrn] at hpr; cases hpr
        | ok rn =>
        rw [hrn] at hpr
        simp only at hpr
        xs [hb0, h4]
        pcat
        refine wp_strncmp env fuel d (n := 4) hpt (pts_lit _ _) (by omega) hrn ?_
        by_cases hn0 : rn = 0
        · simp only [hn0, decide_true, if_true] at hpr
          cases hpr
          xs [hn0]
          pcset
        simp only [hn0, decide_false, Bool.false_eq_true, if_false] at hpr
        xs [hn0]
        pcnum
      · rw [if_neg h4] at hpr
        simp only [Bool.false_eq_true, if_false] at hpr
        xs [hb0, h4]
        pcnum
    · rw [if_neg h5] at hpr
      have h4 : value.end_ - value.start ≠ 4 := by omega
      simp only [h4, bind, Except.bind, Bool.false_eq_true, if_false] at hpr
      xs [h5, h4]
      pcnum

/-! ## The claims read so far -/

/-- The cells of a `struct l8w8jwt_claim`. -/
def recCells (c : Claim) : List Val := [ptrVal c.key, .int c.keyLength, ptrVal c.value, .int c.valueLength, .int c.type]

/-- The strings of the claims are in memory, in blocks other than the one with number `id`. -/
def Held (mem : Blk → Option (List Val)) (id tick : Nat) (cs : List Claim) : Prop :=
  ∀ c ∈ cs, c.keyLength < 18446744073709551616 ∧ c.valueLength < 18446744073709551616 ∧ 0 ≤ c.type ∧ c.type ≤ 7 ∧
    ∀ b, (c.key = some b ∨ c.value = some b) → mem (.heap b.id) = some (cells b.mem) ∧ b.id ≠ id ∧ b.id < tick

/-- Memory while claims are appended to the buffer in the variable number `kb`: everything that was there before is unchanged, except for the
buffer. -/
structure PInv (m0 : Blk → Option (List Val)) (kb id k0 t0 : Nat) (buf : List Claim) (heap : Heap) (mem : Blk → Option (List Val)) (stk : Nat) :
    Prop where
  bufc : BufC mem (.stack kb) id 16 5 buf.length (buf.flatMap recCells)
  held : Held mem id heap.tick buf
  stack : ∀ j, stk ≤ j → mem (.stack j) = none
  free : ∀ j, heap.tick ≤ j → mem (.heap j) = none
  frame : ∀ x, x ≠ .stack kb → x ≠ .heap id → (∀ j, k0 ≤ j → x ≠ .stack j) → (∀ j, t0 ≤ j → x ≠ .heap j) → mem x = m0 x
  hk : k0 ≤ stk
  ht : t0 ≤ heap.tick
  hkb : kb < k0
  hid : id < t0

theorem BufC.frame {mem mem' : Blk → Option (List Val)} {b : Blk} {id cap es len : Nat} {content : List Val} (h : BufC mem b id cap es len content)
    (h1 : mem' b = mem b) (h2 : mem' (.heap id) = mem (.heap id)) : BufC mem' b id cap es len content := by
  obtain ⟨a, b, c, ⟨g, e⟩, r, f⟩ := h
  exact ⟨a, b, c, ⟨g, h1.trans e⟩, r, h2.trans f⟩

theorem Held.frame {mem mem' : Blk → Option (List Val)} {id tick tick' : Nat} {cs : List Claim} (h : Held mem id tick cs)
    (hm : ∀ j, j ≠ id → j < tick → mem' (.heap j) = mem (.heap j)) (ht : tick ≤ tick') : Held mem' id tick' cs := by
  intro c hc
  obtain ⟨a1, a2, a3, a4, a5⟩ := h c hc
  refine ⟨a1, a2, a3, a4, fun b hb => ?_⟩
  obtain ⟨b1, b2, b3⟩ := a5 b hb
  exact ⟨(hm _ b2 b3).trans b1, b2, by omega⟩

/-- A variable is changed, or a new one comes into being. -/
theorem PInv.var {m0 : Blk → Option (List Val)} {kb id k0 t0 : Nat} {buf : List Claim} {heap : Heap} {mem : Blk → Option (List Val)} {stk : Nat}
    (h : PInv m0 kb id k0 t0 buf heap mem stk) {j stk' : Nat} (hj : k0 ≤ j) (hj' : j < stk') (hs : stk ≤ stk') (l : List Val) :
    PInv m0 kb id k0 t0 buf heap (upd mem (.stack j) (some l)) stk' where
  bufc := h.bufc.frame (by rw [upd_ne _ _ (by have := h.hkb; simp; omega)]) (by rw [upd_ne _ _ (by simp)])
  held := h.held.frame (fun i _ _ => by rw [upd_ne _ _ (by simp)]) (Nat.le_refl _)
  stack i hi := by rw [upd_ne _ _ (by simp; omega)]; exact h.stack i (by omega)
  free i hi := by rw [upd_ne _ _ (by simp)]; exact h.free i hi
  frame x h1 h2 h3 h4 := by rw [upd_ne _ _ (h3 j hj)]; exact h.frame x h1 h2 h3 h4
  hk := by have := h.hk; omega
  ht := h.ht
  hkb := h.hkb
  hid := h.hid

/-- What was there before. -/
structure Old (m0 : Blk → Option (List Val)) (kb id k0 t0 : Nat) (b : Blk) (l : List Val) : Prop where
  cont : cont globs m0 b = some l
  ne1 : b ≠ .stack kb
  ne2 : b ≠ .heap id
  ne3 : ∀ j, k0 ≤ j → b ≠ .stack j
  ne4 : ∀ j, t0 ≤ j → b ≠ .heap j

theorem PInv.old {m0 : Blk → Option (List Val)} {kb id k0 t0 : Nat} {buf : List Claim} {heap : Heap} {mem : Blk → Option (List Val)} {stk : Nat}
    (h : PInv m0 kb id k0 t0 buf heap mem stk) {b : Blk} {l : List Val} (ho : Old m0 kb id k0 t0 b l) : cont globs mem b = some l := by
  rw [cont_congr (h.frame b ho.ne1 ho.ne2 ho.ne3 ho.ne4)]
  exact ho.cont

theorem rdN_length {m t : Bytes} {n : Nat} (h : rdN m n = .ok t) : t.length ≤ n := by
  unfold rdN at h
  split at h
  · cases h; simp; omega
  · cases h

/-- What `unescapeClaim` does to the allocator. -/
theorem unescapeClaim_ok {type : Int} {key value : Bytes} {kl vl : Nat} {s : Sched} {h h' : Heap} {rc : Nat} {cl : Option Claim}
    (hr : unescapeClaim type key kl value vl s h = .ok ((rc, cl), h')) :
    h'.tick = h.tick + 2 ∧ (cl = none → rc = 300) ∧ ∀ c, cl = some c → rc = 0 ∧ c.keyLength ≤ kl ∧ c.valueLength ≤ vl ∧ c.type = type ∧
      ∃ kb vb, c.key = some kb ∧ c.value = some vb ∧ kb.id = h.tick ∧ vb.id = h.tick + 1 := by
  unfold unescapeClaim at hr
  obtain ⟨k, h1, hk1, hr⟩ := M.bind_inv hr
  obtain ⟨v, h2, hv1, hr⟩ := M.bind_inv hr
  obtain ⟨ht1, hkb⟩ := alloc_inv hk1
  obtain ⟨ht2, hvb⟩ := alloc_inv hv1
  have bad : (do free k; free v; pure (L8W8JWT_OUT_OF_MEM, none) : M (Nat × Option Claim)) s h2 = .ok ((rc, cl), h') →
      h'.tick = h.tick + 2 ∧ (cl = none → rc = 300) ∧ ∀ c, cl = some c → rc = 0 ∧ c.keyLength ≤ kl ∧ c.valueLength ≤ vl ∧ c.type = type ∧
      ∃ kb vb, c.key = some kb ∧ c.value = some vb ∧ kb.id = h.tick ∧ vb.id = h.tick + 1 := by
    intro hr
    obtain ⟨⟨⟩, h3, hf1, hr⟩ := M.bind_inv hr
    obtain ⟨⟨⟩, h4, hf2, hr⟩ := M.bind_inv hr
    have := (free_ok hf1).2.1
    have := (free_ok hf2).2.1
    cases hr
    exact ⟨by omega, fun _ => rfl, by simp⟩
  cases k with
  | none => exact bad hr
  | some kb =>
    cases v with
    | none => exact bad hr
    | some vb =>
      obtain ⟨rfl, -⟩ := hkb _ rfl
      obtain ⟨rfl, -⟩ := hvb _ rfl
      simp only at hr
      obtain ⟨ks, hks, hr⟩ := M.liftBind_inv hr
      obtain ⟨kmem, hkm, hr⟩ := M.liftBind_inv hr
      have l1 := rdN_length hks
      have l2 := unescape_length ks
      split at hr
      · obtain ⟨vs, hvs, hr⟩ := M.liftBind_inv hr
        obtain ⟨vmem, hvm, hr⟩ := M.liftBind_inv hr
        have l3 := rdN_length hvs
        have l4 := unescape_length vs
        cases hr
        refine ⟨by omega, by simp, ?_⟩
        rintro c hc
        cases hc
        exact ⟨rfl, by simp only; omega, by simp only; omega, rfl, _, _, rfl, rfl, rfl, ht1⟩
      · obtain ⟨vs, hvs, hr⟩ := M.liftBind_inv hr
        obtain ⟨vmem, hvm, hr⟩ := M.liftBind_inv hr
        cases hr
        refine ⟨by omega, by simp, ?_⟩
        rintro c hc
        cases hc
        exact ⟨rfl, by simp only; omega, by simp only; omega, rfl, _, _, rfl, rfl, rfl, ht1⟩

/-- After `l8w8jwt_unescape_claim`. -/
theorem PInv.claim {m0 : Blk → Option (List Val)} {kb id k0 t0 : Nat} {buf : List Claim} {heap h' : Heap} {mem mem' : Blk → Option (List Val)} {stk C : Nat}
    (h : PInv m0 kb id k0 t0 buf heap mem stk) (hC : k0 ≤ C) (hC' : C < stk) {c : Claim} (ht : h'.tick = heap.tick + 2) {a b : Block}
    (hk : c.key = some a) (hv : c.value = some b) (ha : a.id = heap.tick) (hb : b.id = heap.tick + 1)
    (hm : ClaimOut mem (.stack C) mem' (some c)) : PInv m0 kb id k0 t0 buf h' mem' stk ∧ mem' (.stack C) = some (recCells c) ∧
      mem' (.heap a.id) = some (cells a.mem) ∧ mem' (.heap b.id) = some (cells b.mem) := by
  obtain ⟨a', b', e1, e2, rfl⟩ := hm
  rw [hk] at e1; cases e1
  rw [hv] at e2; cases e2
  have hid := h.hid
  have hkb := h.hkb
  have htt := h.ht
  refine ⟨⟨?_, ?_, ?_, ?_, ?_, h.hk, by omega, h.hkb, h.hid⟩, ?_, ?_, ?_⟩
  · refine h.bufc.frame ?_ ?_
    · rw [upd_ne _ _ (by simp; omega), upd_ne _ _ (by simp), upd_ne _ _ (by simp)]
    · rw [upd_ne _ _ (by simp), upd_ne _ _ (by simp; omega), upd_ne _ _ (by simp; omega)]
  · refine h.held.frame (fun i _ hi => ?_) (by omega)
    rw [upd_ne _ _ (by simp), upd_ne _ _ (by simp; omega), upd_ne _ _ (by simp; omega)]
  · intro j hj
    rw [upd_ne _ _ (by simp; omega), upd_ne _ _ (by simp), upd_ne _ _ (by simp)]
    exact h.stack j hj
  · intro j hj
    rw [upd_ne _ _ (by simp), upd_ne _ _ (by simp; omega), upd_ne _ _ (by simp; omega)]
    exact h.free j (by omega)
  · intro x h1 h2 h3 h4
    rw [upd_ne _ _ (h3 C hC), upd_ne _ _ (h4 _ (by omega)), upd_ne _ _ (h4 _ (by omega))]
    exact h.frame x h1 h2 h3 h4
  · rw [upd_same, hk, hv, recCells, hk, hv]
  · rw [upd_ne _ _ (by simp), upd_ne _ _ (by simp; omega), upd_same]
  · rw [upd_ne _ _ (by simp), upd_same]

/-- After `chillbuff_push_back`. -/
theorem PInv.pushed {m0 : Blk → Option (List Val)} {kb id k0 t0 : Nat} {buf new : List Claim} {heap h' : Heap} {mem mem' : Blk → Option (List Val)} {stk : Nat}
    (h : PInv m0 kb id k0 t0 buf heap mem stk) (ht : h'.tick = heap.tick + 1) (hn : Held mem id heap.tick new)
    (hb : BufC mem' (.stack kb) id 16 5 (buf ++ new).length ((buf ++ new).flatMap recCells)) (hf : Frame mem mem' (.stack kb) id) :
    PInv m0 kb id k0 t0 (buf ++ new) h' mem' stk where
  bufc := hb
  held := by
    have : Held mem id heap.tick (buf ++ new) := fun c hc => by
      rcases List.mem_append.mp hc with hc | hc
      · exact h.held c hc
      · exact hn c hc
    refine this.frame (tick' := h'.tick) (fun i hi _ => hf _ (by simp) (by simpa using hi)) (by omega)
  stack j hj := by
    have := h.hkb
    have := h.hk
    rw [hf _ (by simp; omega) (by simp)]
    exact h.stack j hj
  free j hj := by
    have := h.hid
    have := h.ht
    rw [hf _ (by simp) (by simp; omega)]
    exact h.free j (by omega)
  frame x h1 h2 h3 h4 := by rw [hf x h1 h2]; exact h.frame x h1 h2 h3 h4
  hk := h.hk
  ht := by have := h.ht; omega
  hkb := h.hkb
  hid := h.hid

theorem PInv.later {m0 : Blk → Option (List Val)} {kb id k0 t0 : Nat} {buf : List Claim} {heap h' : Heap} {mem : Blk → Option (List Val)} {stk : Nat}
    (h : PInv m0 kb id k0 t0 buf heap mem stk) (ht : heap.tick ≤ h'.tick) : PInv m0 kb id k0 t0 buf h' mem stk :=
  ⟨h.bufc, h.held.frame (fun _ _ _ => rfl) ht, h.stack, fun j hj => h.free j (by omega), h.frame, h.hk, by have := h.ht; omega, h.hkb, h.hid⟩

/-! ## The loop over the tokens -/

theorem loop3_eq : l8w8jwt_parse_claims.loop3 = .loop (.cmp .lt (.loc 7) (.cast .u64 (.loc 4)))
    (.seq (.declMem 8 5 [] .undef) (.seq (.declMem 9 4 [] .undef)
      (.seq (.exp (.copy 4 (.loc 9) (.padd 4 (.loc 6) (.loc 7))))
        (.seq (.declMem 10 4 [] .undef)
          (.seq (.exp (.copy 4 (.loc 10) (.padd 4 (.loc 6) (.set 7 (.ar .add .u64 (.loc 7) (.num 1))))))
            (.seq (.ite (.lor (.cmp .ge (.loc 7) (.cast .u64 (.loc 4))) (.cmp .ne (.load (.int .u32) (.loc 9)) (.num 4)))
              (.seq (.exp (.set 4 (.num 600))) (.goto "exit")) .skip)
              (.seq pcSwitch.1 pcSwitch.2)))))))
    (.set 7 (.ar .add .u64 (.loc 7) (.num 1))) := rfl

theorem pcSwitch_label {c : Ctx} {s : Sched} {st : St} (k : String) (Q : Ctl → St → Prop) :
    WP (exec c pcSwitch.1 (.label k)) s st Q = Q (.next (.label k)) st := jump_switch_label _ _ _ _ _ _ _

theorem pcRest_label {c : Ctx} {s : Sched} {st : St} (k : String) (Q : Ctl → St → Prop) :
    WP (exec c pcSwitch.2 (.label k)) s st Q = Q (.next (.label k)) st := by
  simp only [pcSwitch, l8w8jwt_parse_claims.loop3]
  xs []

theorem tok_read {env : Env} {l : List Val} {toks : List Tok} {cap i : Nat} (ha : TokArr env l toks cap) (hi : i < cap) {c : Ctx} {T : Blk}
    {s : Sched} {st : St} (hT : cont c.glob st.mem T = some l) :
    readCells c (.ptr (some (T, ((4 * i : Nat) : Int)))) 4 s st = .ok (tokCells (slot env toks i), st) := by
  rw [readCells_cont hT (by have := ha.len; omega), ha.get i hi]

/-- src/decode.c:266-362 -/
theorem wp_loop3 (env : Env) (fuel d : Nat) {s : Sched} {m0 : Blk → Option (List Val)} {kb id k0 t0 : Nat} {T J : Blk}
    {l lj : List Val} {jm : Bytes} {oj n : Nat} {toks : List Tok} {cap : Nat} {x3 x5 : Val}
    (hT : Old m0 kb id k0 t0 T l) (ha : TokArr env l toks cap)
    (hJ : Old m0 kb id k0 t0 J lj) (hjm : bytesFrom lj oj = jm) (hoj : oj ≤ lj.length) (hn : n < 2147483648) (hnj : n ≤ jm.length)
    (hin : ∀ t ∈ toks, TokIn n t) (he : IntEnds env toks) (hc : cap < 4294967296) (hf : toks.length + 2 < fuel ∧ n < fuel)
    {buf0 : List Claim} {heap0 : Heap} {mem0 : Blk → Option (List Val)} {stk0 f0 i0 : Nat} {y8 y9 y10 y11 y12 : Val}
    (hinv : PInv m0 kb id k0 t0 buf0 heap0 mem0 stk0) (hi0 : i0 ≤ toks.length + 1) (hf0 : (toks.drop i0).length < f0)
    {rc : Nat} {buf' : List Claim} {h' : Heap}
    (hr : claimsLoop env jm cap toks.length f0 (toks.drop i0) buf0 s heap0 = .ok ((rc, buf'), h')) {Q : Ctl → St → Prop}
    (hq : ∀ mode y4 y7 y8 y9 y10 y11 y12 mem' stk', PInv m0 kb id k0 t0 buf' h' mem' stk' → (mode = .run ∧ rc = 0 ∨ mode = .label "exit" ∧ y4 = .int rc) →
      Q (.next mode) ⟨[.ptr (some (.stack kb, 0)), .ptr (some (J, (oj : Int))), .int n, x3, y4, x5, .ptr (some (T, 0)), y7, y8, y9, y10, y11, y12], h', mem', stk'⟩) :
    WP (exec (cx env fuel (d + 2)) l8w8jwt_parse_claims.loop3 .run) s ⟨[.ptr (some (.stack kb, 0)), .ptr (some (J, (oj : Int))), .int n, x3, .int toks.length, x5,
      .ptr (some (T, 0)), .int i0, y8, y9, y10, y11, y12], heap0, mem0, stk0⟩ Q := by
  rw [loop3_eq]
  have hle := ha.le
  have hlen := ha.len
  refine wp_loop (fun m st' => ∃ i buf heap mem stk f y8 y9 y10 y11 y12, m = toks.length + 1 - i ∧ i ≤ toks.length + 1 ∧ (toks.drop i).length < f ∧
      claimsLoop env jm cap toks.length f (toks.drop i) buf s heap = .ok ((rc, buf'), h') ∧ PInv m0 kb id k0 t0 buf heap mem stk ∧
      st' = ⟨[.ptr (some (.stack kb, 0)), .ptr (some (J, (oj : Int))), .int n, x3, .int toks.length, x5, .ptr (some (T, 0)), .int i, y8, y9, y10, y11, y12],
        heap, mem, stk⟩) (toks.length + 1 - i0) ?_ ⟨i0, buf0, heap0, mem0, stk0, f0, y8, y9, y10, y11, y12, rfl, hi0, hf0, hr, hinv, rfl⟩ (by rw [cx_fuel]; omega)
  clear hr hinv hf0 hi0 y8 y9 y10 y11 y12 buf0 heap0 mem0 stk0 f0 i0
  rintro k st ⟨i, buf, heap, mem, stk, f, y8, y9, y10, y11, y12, rfl, hi, hf1, hr, hinv, rfl⟩
  obtain ⟨f, rfl⟩ : ∃ f', f = f' + 1 := ⟨f - 1, by omega⟩
  by_cases hlt : i < toks.length
  case neg =>
    rw [List.drop_eq_nil_of_le (by omega)] at hr
    unfold claimsLoop at hr
    cases hr
    xs [hlt]
    exact hq .run _ _ _ _ _ _ _ _ _ hinv (Or.inl ⟨rfl, rfl⟩)
  have I1 := hinv.var (j := stk) (stk' := stk + 1) hinv.hk (by omega) (by omega) (List.replicate 5 .undef)
  have I2 := I1.var (j := stk + 1) (stk' := stk + 1 + 1) (by have := hinv.hk; omega) (by omega) (by omega) (List.replicate 4 .undef)
  have I3 := I2.var (j := stk + 1) (stk' := stk + 1 + 1) (by have := hinv.hk; omega) (by omega) (by omega) (tokCells (slot env toks i))
  have I4 := I3.var (j := stk + 1 + 1) (stk' := stk + 1 + 1 + 1) (by have := hinv.hk; omega) (by omega) (by omega) (List.replicate 4 .undef)
  have I5 := I4.var (j := stk + 1 + 1) (stk' := stk + 1 + 1 + 1) (by have := hinv.hk; omega) (by omega) (by omega) (tokCells (slot env toks (i + 1)))
  xs [hlt]
  simp only [List.length_nil, Nat.sub_zero, List.nil_append]
  refine wp_paddV (c := cx env fuel (d + 2)) (by exact I2.old hT) (by omega) (by omega) ?_
  rw [show (0 : Int) + 4 * (i : Int) = ((4 * i : Nat) : Int) by omega]
  refine (wp_of_eq (tok_read (c := cx env fuel (d + 2)) ha (by omega) (by exact I2.old hT))).mpr ?_
  refine wp_writeCells_own (l := List.replicate 4 .undef) (by rfl) (by exact upd_same _ _ _) (by rfl) ?_
  xs []
  simp only [List.length_nil, Nat.sub_zero, List.nil_append]
  have hcap : i + 1 < cap := by
    by_cases hlt' : i + 1 < toks.length
    · omega
    · cases hdr : toks.drop i with
      | nil => have := congrArg List.length hdr; simp at this; omega
      | cons key tl =>
        obtain ⟨-, -, htl⟩ := drop_cons_lt hdr
        rw [List.drop_eq_nil_of_le (by omega)] at htl
        subst htl
        rw [hdr] at hr
        unfold claimsLoop at hr
        obtain ⟨g, hg, -⟩ := M.liftBind_inv hr
        unfold slackSlot at hg
        split at hg
        · omega
        · cases hg
  refine wp_paddV (c := cx env fuel (d + 2)) (by exact I4.old hT) (by omega) (by omega) ?_
  rw [show (0 : Int) + 4 * ((i : Int) + 1) = ((4 * (i + 1) : Nat) : Int) by omega]
  refine (wp_of_eq (tok_read (c := cx env fuel (d + 2)) ha hcap (by exact I4.old hT))).mpr ?_
  xs []
  refine wp_writeCells_own (l := List.replicate 4 .undef) (by rfl) (by exact upd_same _ _ _) (by rfl) ?_
  xs []
  have K5 : ∀ M, M = upd (upd (upd (upd (upd mem (.stack stk) (some (List.replicate 5 .undef))) (.stack (stk + 1)) (some (List.replicate 4 .undef)))
      (.stack (stk + 1)) (some (tokCells (slot env toks i)))) (.stack (stk + 1 + 1)) (some (List.replicate 4 .undef))) (.stack (stk + 1 + 1))
      (some (tokCells (slot env toks (i + 1)))) → M (.stack stk) = some [.undef, .undef, .undef, .undef, .undef] ∧ M (.stack (stk + 1)) = some (tokCells (slot env toks i)) ∧
      M (.stack (stk + 1 + 1)) = some (tokCells (slot env toks (i + 1))) := by
    rintro M rfl
    refine ⟨?_, ?_, upd_same _ _ _⟩
    · rw [upd_ne _ _ (by simp; omega), upd_ne _ _ (by simp; omega), upd_ne _ _ (by simp), upd_ne _ _ (by simp), upd_same]; rfl
    · rw [upd_ne _ _ (by simp), upd_ne _ _ (by simp), upd_same]
  obtain ⟨M5, hM5⟩ : ∃ M, M = upd (upd (upd (upd (upd mem (.stack stk) (some (List.replicate 5 .undef))) (.stack (stk + 1)) (some (List.replicate 4 .undef)))
      (.stack (stk + 1)) (some (tokCells (slot env toks i)))) (.stack (stk + 1 + 1)) (some (List.replicate 4 .undef))) (.stack (stk + 1 + 1))
      (some (tokCells (slot env toks (i + 1)))) := ⟨_, rfl⟩
  obtain ⟨mC, mK, mV⟩ := K5 M5 hM5
  rw [← hM5] at I5 ⊢
  clear I1 I2 I3 I4 K5 hM5
  have hk0 := hinv.hk
  by_cases hlt' : i + 1 < toks.length
  case neg =>
    cases hdr : toks.drop i with
    | nil => have := congrArg List.length hdr; simp at this; omega
    | cons key tl =>
      obtain ⟨-, -, htl⟩ := drop_cons_lt hdr
      rw [List.drop_eq_nil_of_le (by omega)] at htl
      subst htl
      rw [hdr] at hr
      unfold claimsLoop at hr
      obtain ⟨g, hg, hr⟩ := M.liftBind_inv hr
      cases hr
      xs [hlt', ↓pcSwitch_label, ↓pcRest_label]
      exact hq _ _ _ _ _ _ _ _ _ _ I5 (Or.inr ⟨rfl, rfl⟩)
  cases hdr : toks.drop i with
  | nil => have := congrArg List.length hdr; simp at this; omega
  | cons key tl =>
  obtain ⟨-, hkey, htl⟩ := drop_cons_lt hdr
  cases hdr2 : toks.drop (i + 1) with
  | nil => have := congrArg List.length hdr2; simp at this; omega
  | cons value rest =>
  obtain ⟨-, hvalue, hrest⟩ := drop_cons_lt hdr2
  rw [hdr2] at htl
  subst htl
  rw [hdr] at hr
  rw [slot_lt hkey] at mK
  rw [slot_lt hvalue] at mV
  have tk := hin key (List.mem_of_getElem? hkey)
  have tv := hin value (List.mem_of_getElem? hvalue)
  have hKc : cont globs M5 (.stack (stk + 1)) = some (tokCells key) := mK
  have hVc : cont globs M5 (.stack (stk + 1 + 1)) = some (tokCells value) := mV
  unfold claimsLoop at hr
  xs [hlt']
  refine wp_loadV (c := cx env fuel (d + 2)) (v := .int (tokCode key.type)) (w := .int (tokCode key.type)) (by exact hKc) (by omega) (by rfl) ?_ ?_
  · simp only [asTy]
    cases key.type <;> rfl
  by_cases hks : key.type = .string
  case neg =>
    rw [if_pos hks] at hr
    cases hr
    have : tokCode key.type ≠ 4 := by cases h : key.type <;> simp [tokCode]; exact hks h
    xs [this, ↓pcSwitch_label, ↓pcRest_label]
    exact hq _ _ _ _ _ _ _ _ _ _ I5 (Or.inr ⟨rfl, rfl⟩)
  rw [if_neg (by simpa using hks)] at hr
  obtain ⟨⟨ty, rest'⟩, hct, hr⟩ := M.liftBind_inv hr
  rw [hks]
  simp only [tokCode]
  xs []
  rw [← hrest] at hct
  have ecast : ((i : Int) + 1) = ((i + 1 : Nat) : Int) := by omega
  rw [ecast]
  refine wp_pcSwitch env fuel (d + 2) (i := i + 1) (value := value) (I5.old hT) ha mC mV (by omega) (hT.ne3 _ hk0) (I5.old hJ) hjm hoj
    ⟨tv.1, tv.2.1, by have := tv.2.2.1; omega, by have := tv.2.2.1; omega⟩ he hlt' hc (by omega) hct ?_
  cases ty with
  | none =>
    cases hr
    intro z11
    xs [↓pcRest_label]
    exact hq _ _ _ _ _ _ _ _ _ _ I5 (Or.inr ⟨rfl, rfl⟩)
  | some ty =>
  intro i' z11 hi1 hi2 hrest' hty
  subst hrest'
  simp only at hr
  obtain ⟨⟨ur, cl⟩, h1, hun, hr2⟩ := M.bind_inv hr
  have I6 := I5.var (j := stk) (stk' := stk + 1 + 1 + 1) hk0 (by omega) (Nat.le_refl _) [.undef, .undef, .undef, .undef, .int ty]
  have mC6 : ∀ M, M = upd M5 (.stack stk) (some [.undef, .undef, .undef, .undef, .int ty]) → M (.stack stk) = some [.undef, .undef, .undef, .undef, .int ty] ∧
      cont globs M (.stack (stk + 1)) = some (tokCells key) ∧ cont globs M (.stack (stk + 1 + 1)) = some (tokCells value) := by
    rintro M rfl
    exact ⟨upd_same _ _ _, by rw [cont_upd (by simp)]; exact hKc, by rw [cont_upd (by simp; omega)]; exact hVc⟩
  obtain ⟨M6, hM6⟩ : ∃ M, M = upd M5 (.stack stk) (some [.undef, .undef, .undef, .undef, .int ty]) := ⟨_, rfl⟩
  obtain ⟨mC', mK', mV'⟩ := mC6 M6 hM6
  rw [← hM6] at I6 ⊢
  clear mC6 hM6 hKc hVc mK mV mC I5 M5
  have hJ6 := I6.old hJ
  have kk := tk.2.2.1
  have vv := tv.2.2.1
  have kp0 := tk.1
  have vp0 := tv.1
  have kp1 := tk.2.1
  have vp1 := tv.2.1
  obtain ⟨pk1, pk2⟩ := pts_at hJ6 hjm hoj (k := key.start) tk.1 (by omega)
  obtain ⟨pv1, pv2⟩ := pts_at hJ6 hjm hoj (k := value.start) tv.1 (by omega)
  simp only [pcSwitch, l8w8jwt_parse_claims.loop3]
  xs []
  refine wp_ld (c := cx env fuel (d + 2)) (v := .int key.start) (by exact mK') (by omega) (by rfl) (asTy_i32 _ (by omega) (by omega)) ?_
  xs []
  refine wp_paddV (c := cx env fuel (d + 2)) (by exact hJ6) (by omega) (by omega) ?_
  xs []
  refine wp_ld (c := cx env fuel (d + 2)) (v := .int key.end_) (by exact mK') (by omega) (by rfl) (asTy_i32 _ (by omega) (by omega)) ?_
  xs []
  refine wp_ld (c := cx env fuel (d + 2)) (v := .int key.start) (by exact mK') (by omega) (by rfl) (asTy_i32 _ (by omega) (by omega)) ?_
  xs []
  refine wp_ld (c := cx env fuel (d + 2)) (v := .int value.start) (by exact mV') (by omega) (by rfl) (asTy_i32 _ (by omega) (by omega)) ?_
  xs []
  refine wp_paddV (c := cx env fuel (d + 2)) (by exact hJ6) (by omega) (by omega) ?_
  xs []
  refine wp_ld (c := cx env fuel (d + 2)) (v := .int value.end_) (by exact mV') (by omega) (by rfl) (asTy_i32 _ (by omega) (by omega)) ?_
  xs []
  refine wp_ld (c := cx env fuel (d + 2)) (v := .int value.start) (by exact mV') (by omega) (by rfl) (asTy_i32 _ (by omega) (by omega)) ?_
  xs []
  have ek : key.end_ - key.start = ((ptrDiff key.end_.toNat key.start.toNat : Nat) : Int) := by unfold ptrDiff; omega
  have ev : value.end_ - value.start = ((ptrDiff value.end_.toNat value.start.toNat : Nat) : Int) := by unfold ptrDiff; omega
  rw [ek, ev, cx_fun _ _ _ (fn := l8w8jwt_unescape_claim) rfl]
  refine wp_unescape_claim env fuel d (C := .stack stk) (a0 := .undef) (a1 := .undef) (a2 := .undef) (a3 := .undef) (type := ty)
    (by exact ⟨I6.stack, I6.free⟩) rfl (by exact mC') (by omega) (by exact pk2) (by have := hJ.ne3 _ hk0; simpa [Val.blk] using this)
    (by exact pv2) (by have := hJ.ne3 _ hk0; simpa [Val.blk] using this) (by omega) (by omega) (by omega) (by exact hun) ?_
  intro mem' hout
  obtain ⟨ht1, hnone, hsome⟩ := unescapeClaim_ok hun
  cases cl with
  | none =>
    obtain rfl := hnone rfl
    cases hr2
    obtain ⟨hx, lC, hC⟩ := hout
    have I7 := (I6.var (j := stk) (stk' := stk + 1 + 1 + 1) hk0 (by omega) (Nat.le_refl _) lC).later (h' := h') (by omega)
    have : upd M6 (.stack stk) (some lC) = mem' := by
      funext x
      by_cases hxs : x = .stack stk
      · rw [hxs, upd_same, hC]
      · rw [upd_ne _ _ hxs, hx x hxs]
    rw [this] at I7
    xs []
    exact hq _ _ _ _ _ _ _ _ _ _ I7 (Or.inr ⟨rfl, rfl⟩)
  | some c =>
  obtain ⟨rfl, hkl, hvl, rfl, a, b, hka, hvb, ha1, hb1⟩ := hsome c rfl
  obtain ⟨buf1, h2, hpush, hr3⟩ := M.bind_inv hr2
  obtain ⟨I7, mC7, ma, mb⟩ := I6.claim (C := stk) hk0 (by omega) ht1 hka hvb ha1 hb1 hout
  xs []
  rw [push_eq] at hpush
  cases hpush
  refine wp_pushC env fuel (d + 2) (n := 1) (src := recCells c) (by exact I7.bufc) ?_ (by simp) (by rfl) ?_
  · intro _
    exact readCells_cont (c := lctx env) (o := 0) (n := 5) (l := recCells c) (by exact mC7) (by simp [recCells])
  intro v mem'' hb2 hfr
  have hnew : (recCells c).take (grown s h1 16 buf.length 1 * 5) = ([c].take (grown s h1 16 buf.length 1)).flatMap recCells := by
    have := grown_le s h1 16 buf.length 1
    have : grown s h1 16 buf.length 1 = 0 ∨ grown s h1 16 buf.length 1 = 1 := by omega
    rcases this with h | h <;> rw [h] <;> simp [recCells]
  have hnl : ([c].take (grown s h1 16 buf.length 1)).length = grown s h1 16 buf.length 1 := by
    have := grown_le s h1 16 buf.length 1
    simp
    omega
  have hheld : Held mem' id h1.tick ([c].take (grown s h1 16 buf.length 1)) := by
    intro c' hc'
    obtain rfl : c' = c := by simpa using List.mem_of_mem_take hc'
    have := I7.hid
    have := hinv.ht
    refine ⟨by omega, by omega, by omega, by omega, ?_⟩
    rintro b' (hb' | hb')
    · rw [hka] at hb'
      cases hb'
      exact ⟨ma, by omega, by omega⟩
    · rw [hvb] at hb'
      cases hb'
      exact ⟨mb, by omega, by omega⟩
  have I8 := I7.pushed (h' := { h1 with tick := h1.tick + 1 }) (mem' := mem'') rfl hheld (by
    rw [List.length_append, List.flatMap_append, hnl, ← hnew]
    exact hb2) hfr
  xs []
  refine ⟨toks.length + 1 - (i' + 1), by omega, i' + 1, _, _, _, _, f, _, _, _, _, _, rfl, by omega, ?_, hr3, I8, rfl⟩
  have := congrArg List.length hdr
  simp at this hf1 ⊢
  omega

/-! ## The function -/

theorem writeCells_poke {c : Ctx} {b : Blk} {s : Sched} {st : St} {l w : List Val} (hb : b.own = true) (h : st.mem b = some l)
    (hl : w.length ≤ l.length) :
    writeCells c (.ptr (some (b, 0))) w s st = .ok ((), { st with mem := upd st.mem b (some (poke l 0 w)) }) := by
  simp only [writeCells, X.bind_apply, obj_own hb h]
  rw [if_pos ⟨by omega, by simp; omega⟩, setObj_own hb]
  simp [poke]

theorem wp_jsmnInit (env : Env) (fuel d : Nat) {b : Blk} {l : List Val} {s : Sched} {st : St} {Q : Val → St → Prop} (hb : b.own = true)
    (h : st.mem b = some l) (hl : l.length = 3) (hq : Q .undef { st with mem := upd st.mem b (some [.int 0, .int 0, .int (-1)]) }) :
    WP ((cx env fuel d).call "jsmn_init" [.ptr (some (b, 0))]) s st Q := by
  rw [cx_lib _ _ _ rfl]
  refine ⟨_, _, ?_, hq⟩
  show xJsmnInit (lctx env) (.ptr (some (b, 0))) s st = _
  unfold xJsmnInit
  rw [X.bind_apply, writeCells_own hb h (by simp [hl])]
  rfl

/-- What `jsmn_parse` returns. -/
def parseRes {α : Type} (f : α → Nat) : Except JErr α → Int
  | .error e => errCode e
  | .ok a => f a

theorem wp_jsmnCount (env : Env) (fuel d : Nat) {b : Blk} {p : Val} {m t : Bytes} {n : Nat} {k : Int} {s : Sched} {st : St} {Q : Val → St → Prop}
    (hb : b.own = true) (h : st.mem b = some [.int 0, .int 0, .int (-1)]) (hp : Pts globs st.mem p (some m)) (ht : rdN m n = .ok t)
    (hq : Q (.int (parseRes _root_.id (jsmnCount t))) { st with mem := upd st.mem b (some [.undef, .undef, .undef]) }) :
    WP ((cx env fuel d).call "jsmn_parse" [.ptr (some (b, 0)), p, .int n, .ptr none, .int k]) s st Q := by
  obtain ⟨J, o, l, rfl, hJ, ho, hm⟩ := hp
  rw [cx_lib _ _ _ rfl]
  refine ⟨_, _, ?_, hq⟩
  show xJsmnParse (lctx env) (.ptr (some (b, 0))) (.ptr (some (J, (o : Int)))) n (.ptr none) k s st = _
  have e1 : bytesAt (lctx env) (.ptr (some (J, (o : Int)))) s st = .ok (m, st) := by
    simp only [bytesAt, X.bind_apply, obj_cont (c := lctx env) hJ]
    rw [if_neg (by omega), X.pure_apply, ← hm]
    rfl
  have e0 : readCells (lctx env) (.ptr (some (b, 0))) 3 s st = .ok ([.int 0, .int 0, .int (-1)], st) :=
    readCells_cont (c := lctx env) (o := 0) ((cont_own hb).trans h) (by simp)
  unfold xJsmnParse
  rw [X.bind_apply, e0]
  simp only [if_true]
  rw [X.bind_apply, e1]
  simp only
  rw [X.bind_apply, Int.toNat_natCast, ht, X.res_ok]
  simp only
  rw [X.bind_apply, writeCells_own hb h (by rfl)]
  simp only
  cases jsmnCount t <;> rfl

/-- The token array after `jsmn_parse`. -/
def parsedArr (l : List Val) (k : Nat) : Except JErr (Nat × List Tok) → List Val
  | .error _ => poke l 0 (List.replicate (4 * k) .undef)
  | .ok (_, ts) => poke l 0 (ts.flatMap tokCells)

theorem wp_jsmnParse (env : Env) (fuel d : Nat) {b T : Blk} {l : List Val} {p : Val} {m t : Bytes} {n k : Nat} {s : Sched} {st : St} {Q : Val → St → Prop}
    (hb : b.own = true) (h : st.mem b = some [.int 0, .int 0, .int (-1)]) (hp : Pts globs st.mem p (some m)) (ht : rdN m n = .ok t)
    (hT : T.own = true) (hTl : st.mem T = some l) (hTb : T ≠ b) (hk : 4 * k ≤ l.length) (hlen : ∀ r ts, jsmnParse t k = .ok (r, ts) → ts.length ≤ k)
    (hq : Q (.int (parseRes Prod.fst (jsmnParse t k)))
      { st with mem := upd (upd st.mem b (some [.undef, .undef, .undef])) T (some (parsedArr l k (jsmnParse t k))) }) :
    WP ((cx env fuel d).call "jsmn_parse" [.ptr (some (b, 0)), p, .int n, .ptr (some (T, 0)), .int k]) s st Q := by
  obtain ⟨J, o, lj, rfl, hJ, ho, hm⟩ := hp
  rw [cx_lib _ _ _ rfl]
  refine ⟨_, _, ?_, hq⟩
  show xJsmnParse (lctx env) (.ptr (some (b, 0))) (.ptr (some (J, (o : Int)))) n (.ptr (some (T, 0))) k s st = _
  have e1 : bytesAt (lctx env) (.ptr (some (J, (o : Int)))) s st = .ok (m, st) := by
    simp only [bytesAt, X.bind_apply, obj_cont (c := lctx env) hJ]
    rw [if_neg (by omega), X.pure_apply, ← hm]
    rfl
  have e0 : readCells (lctx env) (.ptr (some (b, 0))) 3 s st = .ok ([.int 0, .int 0, .int (-1)], st) :=
    readCells_cont (c := lctx env) (o := 0) ((cont_own hb).trans h) (by simp)
  unfold xJsmnParse
  rw [X.bind_apply, e0]
  simp only [if_true]
  rw [X.bind_apply, e1]
  simp only
  rw [X.bind_apply, Int.toNat_natCast, ht, X.res_ok]
  simp only
  rw [X.bind_apply, writeCells_own hb h (by rfl)]
  simp only [Int.toNat_natCast]
  have hT' : upd st.mem b (some [.undef, .undef, .undef]) T = some l := by rw [upd_ne _ _ hTb]; exact hTl
  cases hr : jsmnParse t k with
  | error e =>
    simp only
    rw [X.bind_apply, writeCells_poke hT hT' (by simp; omega)]
    rfl
  | ok x =>
    obtain ⟨r, ts⟩ := x
    have := hlen r ts hr
    simp only
    rw [X.bind_apply, writeCells_poke hT hT' (by rw [flatMap_tok_length]; omega)]
    rfl

/-- A claim that is read is an old one or its strings are in new blocks. -/
theorem claimsLoop_ids {env : Env} {jm : Bytes} {cap r : Nat} {s : Sched} : ∀ {f : Nat} {ts : List Tok} {buf buf' : List Claim} {h h' : Heap} {rc : Nat},
    claimsLoop env jm cap r f ts buf s h = .ok ((rc, buf'), h') →
      ∀ c ∈ buf', c ∈ buf ∨ ∀ b, (c.key = some b ∨ c.value = some b) → h.tick ≤ b.id
  | 0, ts, buf, buf', h, h', rc, hr, c, hc => by
    cases ts <;> cases hr <;> exact Or.inl hc
  | f + 1, [], buf, buf', h, h', rc, hr, c, hc => by
    cases hr; exact Or.inl hc
  | f + 1, [_], buf, buf', h, h', rc, hr, c, hc => by
    obtain ⟨_, _, hr2⟩ := M.liftBind_inv hr
    cases hr2; exact Or.inl hc
  | f + 1, key :: value :: rest, buf, buf', h, h', rc, hr, c, hc => by
    rw [claimsLoop] at hr
    split at hr
    · cases hr; exact Or.inl hc
    · obtain ⟨⟨ty, rest'⟩, _, hr2⟩ := M.liftBind_inv hr
      cases ty with
      | none => cases hr2; exact Or.inl hc
      | some ty =>
        obtain ⟨⟨ur, cl⟩, h1, hu, hr3⟩ := M.bind_inv hr2
        obtain ⟨ht1, -, hsome⟩ := unescapeClaim_ok hu
        cases cl with
        | none => cases hr3; exact Or.inl hc
        | some c0 =>
          obtain ⟨-, -, -, -, a, b, hka, hvb, ha1, hb1⟩ := hsome c0 rfl
          obtain ⟨buf1, h2, hpush, hr4⟩ := M.bind_inv hr3
          rw [push_eq] at hpush
          cases hpush
          rcases claimsLoop_ids hr4 c hc with hc' | hc'
          · rcases List.mem_append.mp hc' with hc' | hc'
            · exact Or.inl hc'
            · obtain rfl : c = c0 := by simpa using List.mem_of_mem_take hc'
              refine Or.inr ?_
              rintro b' (hb' | hb')
              · rw [hka] at hb'; cases hb'; omega
              · rw [hvb] at hb'; cases hb'; omega
          · refine Or.inr fun b' hb' => ?_
            have := hc' b' hb'
            simp only at this
            omega

/-- Everything from now on. -/
theorem PInv.rebase {m0 : Blk → Option (List Val)} {kb id k0 t0 : Nat} {buf : List Claim} {heap : Heap} {mem : Blk → Option (List Val)} {stk : Nat}
    (h : PInv m0 kb id k0 t0 buf heap mem stk) : PInv mem kb id stk heap.tick buf heap mem stk :=
  ⟨h.bufc, h.held, h.stack, h.free, fun _ _ _ _ _ => rfl, Nat.le_refl _, Nat.le_refl _, by have := h.hk; have := h.hkb; omega,
    by have := h.ht; have := h.hid; omega⟩

theorem PInv.trans {m0 m1 : Blk → Option (List Val)} {kb id k0 t0 k1 t1 : Nat} {buf buf1 : List Claim} {heap heap1 : Heap} {mem : Blk → Option (List Val)} {stk : Nat}
    (h : PInv m0 kb id k0 t0 buf1 heap1 m1 k1) (ht1 : t1 = heap1.tick) (h' : PInv m1 kb id k1 t1 buf heap mem stk) : PInv m0 kb id k0 t0 buf heap mem stk := by
  subst ht1
  have hk := h.hk
  have ht := h.ht
  have hk' := h'.hk
  have ht' := h'.ht
  refine ⟨h'.bufc, h'.held, h'.stack, h'.free, fun x a1 a2 a3 a4 => ?_, by omega, by omega, h.hkb, h.hid⟩
  rw [h'.frame x a1 a2 (fun j hj => a3 j (by omega)) (fun j hj => a4 j (by omega))]
  exact h.frame x a1 a2 a3 a4

/-- A block that came into being is changed or freed. -/
theorem PInv.heapUpd {m0 : Blk → Option (List Val)} {kb id k0 t0 : Nat} {buf : List Claim} {heap h' : Heap} {mem : Blk → Option (List Val)} {stk : Nat}
    (h : PInv m0 kb id k0 t0 buf heap mem stk) {j : Nat} (hj : t0 ≤ j) (hj' : j < h'.tick) (ht : heap.tick ≤ h'.tick)
    (hc : ∀ c ∈ buf, ∀ b, (c.key = some b ∨ c.value = some b) → b.id ≠ j) (x : Option (List Val)) :
    PInv m0 kb id k0 t0 buf h' (upd mem (.heap j) x) stk where
  bufc := h.bufc.frame (by rw [upd_ne _ _ (by simp)]) (by rw [upd_ne _ _ (by have := h.hid; simp; omega)])
  held := by
    intro c hcm
    obtain ⟨a1, a2, a3, a4, a5⟩ := h.held c hcm
    refine ⟨a1, a2, a3, a4, fun b hb => ?_⟩
    obtain ⟨b1, b2, b3⟩ := a5 b hb
    refine ⟨?_, b2, by omega⟩
    rw [upd_ne _ _ (by simpa using hc c hcm b hb)]
    exact b1
  stack i hi := by rw [upd_ne _ _ (by simp)]; exact h.stack i hi
  free i hi := by rw [upd_ne _ _ (by simp; omega)]; exact h.free i (by omega)
  frame x h1 h2 h3 h4 := by rw [upd_ne _ _ (h4 j hj)]; exact h.frame x h1 h2 h3 h4
  hk := h.hk
  ht := by have := h.ht; omega
  hkb := h.hkb
  hid := h.hid

/-- The variables disappear. -/
theorem PInv.drop {m0 : Blk → Option (List Val)} {kb id k0 t0 : Nat} {buf : List Claim} {heap : Heap} {mem : Blk → Option (List Val)} {stk : Nat}
    (h : PInv m0 kb id k0 t0 buf heap mem stk) : PInv m0 kb id k0 t0 buf heap (dropStack k0 mem) k0 where
  bufc := h.bufc.frame (by have := h.hkb; simp only [dropStack]; rw [if_neg (by omega)]) rfl
  held := h.held
  stack i hi := by simp only [dropStack]; rw [if_pos hi]
  free i hi := h.free i hi
  frame x h1 h2 h3 h4 := by
    rw [← h.frame x h1 h2 h3 h4]
    cases x with
    | stack j =>
      simp only [dropStack]
      split
      · rename_i hj; exact absurd rfl (h3 j hj)
      · rfl
    | _ => rfl
  hk := Nat.le_refl _
  ht := h.ht
  hkb := h.hkb
  hid := h.hid

/-- The text from the second `jsmn_init` on. -/
def pcTail : Stmt :=
  match l8w8jwt_parse_claims.body with
  | .seq _ (.seq _ (.seq _ (.seq _ (.seq _ (.seq _ (.seq _ t)))))) => t
  | _ => .skip

theorem pcTail_eq : pcTail = .seq (.exp (.call "jsmn_init" (.cons (.loc 3) .nil)))
    (.seq (.exp (.set 4 (.call "jsmn_parse" (.cons (.loc 3) (.cons (.loc 1) (.cons (.loc 2) (.cons (.loc 6) (.cons (.cast .u32 (.loc 4)) .nil))))))))
      (.seq (.ite (.cmp .lt (.loc 4) (.num 0)) (.ret (.num 600)) .skip)
        (.seq (.ite (.cmp .ne (.load (.int .u32) (.loc 6)) (.num 1)) (.seq (.exp (.set 4 (.num 600))) (.goto "exit")) .skip)
          (.seq (.exp (.set 7 (.num 1)))
            (.seq l8w8jwt_parse_claims.loop3
              (.seq (.exp (.set 4 (.num 0)))
                (.seq (.label "exit")
                  (.seq (.ite (.cmp .ne (.loc 6) (.loc 5)) (.exp (.call "l8w8jwt_free" (.cons (.loc 6) .nil))) .skip)
                    (.ret (.loc 4)))))))))) := rfl

theorem body_eq : l8w8jwt_parse_claims.body = .seq (.declMem 3 3 [] .undef)
    (.seq (.exp (.call "jsmn_init" (.cons (.loc 3) .nil)))
      (.seq (.exp (.set 4 (.call "jsmn_parse" (.cons (.loc 3) (.cons (.loc 1) (.cons (.loc 2) (.cons .null (.cons (.num 0) .nil))))))))
        (.seq (.ite (.cmp .eq (.loc 4) (.num 0)) (.ret (.num 0)) (.ite (.cmp .lt (.loc 4) (.num 0)) (.ret (.num 600)) .skip))
          (.seq (.declArr 5 256)
            (.seq (.exp (.set 6 (.cond (.cmp .le (.cast .u64 (.loc 4)) (.ar .div .u64 (.num 256) (.num 4))) (.loc 5)
                (.call "malloc" (.cons (.ar .mul .u64 (.cast .u64 (.loc 4)) (.num 4)) .nil)))))
              (.seq (.ite (.cmp .eq (.loc 6) .null) (.ret (.num 300)) .skip) pcTail)))))) := rfl

theorem TokIn.mono {n m : Nat} {t : Tok} (h : TokIn n t) (hm : n ≤ m) : TokIn m t := by
  obtain ⟨a, b, c, d⟩ := h
  exact ⟨a, b, by omega, d⟩

theorem wrap_u32 (cs : Bool) (n : Nat) (h : n < 4294967296) : wrap cs .u32 (n : Int) = n := by
  simp only [wrap, ITy.signed, ITy.modulus, Bool.false_eq_true, if_false]
  omega

theorem cString_length_le (t : Bytes) : (Spec.cString t).length ≤ t.length := by
  unfold Spec.cString
  induction t with
  | nil => simp
  | cons a t ih => 
    simp only [List.takeWhile_cons]
    split
    · simp; omega
    · simp

/-- The array the tokens are written to: the variable or the block from `malloc`. -/
def TokBlk (T : Blk) (tokens : Ptr) (l : List Val) (env : Env) (k t0 t1 r : Nat) : Prop :=
  (T = .stack (k + 1) ∧ tokens = none ∧ l = (List.range 256).map (garbCell env) ∧ r ≤ 64) ∨
  (∃ b, T = .heap b.id ∧ tokens = some b ∧ t0 ≤ b.id ∧ b.id < t1 ∧ l = List.replicate (4 * r) .undef ∧ 64 < r)

theorem loop3_label {c : Ctx} {s : Sched} {st : St} (l : String) (Q : Ctl → St → Prop) :
    WP (exec c l8w8jwt_parse_claims.loop3 (.label l)) s st Q = Q (.next (.label l)) st := by
  rw [loop3_eq]
  xs []

theorem wp_pcTail (env : Env) (fuel d : Nat) {s : Sched} {m0 : Blk → Option (List Val)} {kb id k t0 : Nat} {T J : Blk} {L lj : List Val}
    {jm text : Bytes} {oj n r : Nat} {tokens : Ptr} {buf : List Claim} {heap : Heap} {mem : Blk → Option (List Val)} {lp : List Val}
    (hP : PInv m0 kb id k t0 buf heap mem (k + 2)) (hp : mem (.stack k) = some lp) (hpl : lp.length = 3) (hT : mem T = some L)
    (hTb : TokBlk T tokens L env k t0 heap.tick r) (hnot : ∀ b, tokens = some b → ∀ c ∈ buf, ∀ x, (c.key = some x ∨ c.value = some x) → x.id ≠ b.id)
    (hJ : Old m0 kb id k t0 J lj) (hjm : bytesFrom lj oj = jm) (hoj : oj ≤ lj.length)
    (hn : n < 2147483648) (ht : rdN jm n = .ok text) (hcount : jsmnCount text = .ok r) (hr0 : 0 < r) (hg : ∀ i, -2147483648 ≤ (env.garbage i).end_ ∧ (env.garbage i).end_ < 2147483648)
    (hf : n + 2 < fuel) {rc : Nat} {buf' : List Claim} {h' : Heap} (hr : parseWithTokens env buf jm text r tokens s heap = .ok ((rc, buf'), h'))
    {y7 y8 y9 y10 y11 y12 : Val} {Q : Ctl → St → Prop}
    (hq : ∀ fr' mem' stk', PInv m0 kb id k t0 buf' h' mem' stk' → Q (.ret (.int rc)) ⟨fr', h', mem', stk'⟩) :
    WP (exec (cx env fuel (d + 2)) pcTail .run) s ⟨[.ptr (some (.stack kb, 0)), .ptr (some (J, (oj : Int))), .int n, .ptr (some (.stack k, 0)),
      .int r, .ptr (some (.stack (k + 1), 0)), .ptr (some (T, 0)), y7, y8, y9, y10, y11, y12], heap, mem, k + 2⟩ Q := by
  rw [pcTail_eq]
  obtain ⟨E, hE⟩ : ∃ E : Stmt, E = .seq (.ite (.cmp .ne (.loc 6) (.loc 5)) (.exp (.call "l8w8jwt_free" (.cons (.loc 6) .nil))) .skip)
    (.ret (.loc 4)) := ⟨_, rfl⟩
  rw [← hE]
  have htl := rdN_length ht
  have hrn := jsmnCount_le hcount
  have hnj : n ≤ jm.length := by
    unfold rdN at ht
    split at ht
    · omega
    · cases ht
  have hown : T.own = true := by rcases hTb with ⟨rfl, _⟩ | ⟨b, rfl, _⟩ <;> rfl
  have hTk : T ≠ .stack k := by rcases hTb with ⟨rfl, _⟩ | ⟨b, rfl, _⟩ <;> simp
  have hJk : J ≠ .stack k := hJ.ne3 k (Nat.le_refl _)
  have hkb := hP.hkb
  have htick := hP.ht
  have hid := hP.hid
  have hJT : J ≠ T := by
    rcases hTb with ⟨rfl, _⟩ | ⟨b, rfl, _, h1, _⟩
    · exact hJ.ne3 _ (by omega)
    · exact hJ.ne4 _ h1
  xs []
  refine wp_jsmnInit env fuel _ (b := .stack k) rfl (by exact hp) hpl ?_
  have P1 := hP.var (j := k) (stk' := k + 2) (Nat.le_refl _) (by omega) (by omega) [.int 0, .int 0, .int (-1)]
  xs [wrap_u32 _ r (by omega)]
  have hcj := P1.old hJ
  refine wp_jsmnParse env fuel _ (b := .stack k) (T := T) (l := L) (k := r) rfl (by exact upd_same ..) (by exact ⟨J, oj, lj, rfl, hcj, hoj, hjm⟩) ht hown
    (by show upd mem _ _ T = _; rw [upd_ne _ _ hTk]; exact hT) hTk ?_ ?_ ?_
  · rcases hTb with ⟨_, _, rfl, h⟩ | ⟨b, _, _, _, _, rfl, _⟩
    · simp; omega
    · simp
  · intro r2 ts hp
    obtain ⟨h1, -⟩ := jsmnParse_inv hp
    have := jsmn_counts hcount hp
    omega
  have P2 := P1.var (j := k) (stk' := k + 2) (Nat.le_refl _) (by omega) (by omega) [.undef, .undef, .undef]
  have P3 : PInv m0 kb id k t0 buf heap (upd (upd (upd mem (.stack k) (some [.int 0, .int 0, .int (-1)])) (.stack k) (some [.undef, .undef, .undef])) T
      (some (parsedArr L r (jsmnParse text r)))) (k + 2) := by
    rcases hTb with ⟨rfl, _⟩ | ⟨b, rfl, hb, h1, h2, _⟩
    · exact P2.var (by omega) (by omega) (by omega) _
    · exact P2.heapUpd h1 h2 (Nat.le_refl _) (hnot b hb) _
  obtain ⟨M, hM⟩ : ∃ M, M = upd (upd (upd mem (.stack k) (some [.int 0, .int 0, .int (-1)])) (.stack k) (some [.undef, .undef, .undef])) T
      (some (parsedArr L r (jsmnParse text r))) := ⟨_, rfl⟩
  have hMT : M T = some (parsedArr L r (jsmnParse text r)) := by rw [hM]; exact upd_same ..
  rw [← hM] at P3 ⊢
  clear hM P1 P2 hcj
  unfold parseWithTokens at hr
  cases hres : jsmnParse text r with
  | error e =>
    rw [hres] at hr
    cases hr
    have he : errCode e < 0 := by cases e <;> decide
    simp only [parseRes]
    xs [he]
    exact hq _ _ _ P3
  | ok x =>
  obtain ⟨r2, toks⟩ := x
  rw [hres] at hr hMT
  simp only at hr
  obtain ⟨hl, hin⟩ := jsmnParse_inv hres
  obtain rfl := jsmn_counts hcount hres
  subst hl
  simp only [parsedArr] at hMT
  simp only [parseRes]
  have hin' : ∀ t ∈ toks, TokIn n t := fun t h => TokIn.mono (hin t h) (by have := cString_length_le text; omega)
  have hends : IntEnds env toks := by
    intro i
    unfold slot
    rw [List.getD_eq_getElem?_getD]
    cases hi : toks[i]? with
    | none => exact hg i
    | some t =>
      obtain ⟨h1, h2, h3, -⟩ := hin' t (List.mem_of_getElem? hi)
      simp only [Option.getD_some]
      omega
  have harr : TokArr env (poke L 0 (toks.flatMap tokCells)) toks (if toks.length ≤ 64 then 64 else toks.length) := by
    rcases hTb with ⟨_, _, rfl, h⟩ | ⟨b, _, _, _, _, rfl, h⟩
    · rw [if_pos h]
      exact tokArr_stack env h
    · rw [if_neg (by omega)]
      have : poke (List.replicate (4 * toks.length) Val.undef) 0 (toks.flatMap tokCells) = toks.flatMap tokCells := by
        have hfl := flatMap_tok_length toks
        simp [poke, hfl]
      rw [this]
      exact tokArr_heap env toks
  obtain ⟨l, hl⟩ : ∃ l, l = poke L 0 (toks.flatMap tokCells) := ⟨_, rfl⟩
  rw [← hl] at harr hMT
  have hcT : cont globs M T = some l := (cont_own hown).trans hMT
  cases toks with
  | nil => simp at hr0
  | cons t0' ts =>
  xs []
  -- what happens at the end
  have final : ∀ (y3 y4 y7 y8 y9 y10 y11 y12 : Val) (mem' : Blk → Option (List Val)) (stk' : Nat) (h1 : Heap) (b1 : List Claim) (mode : Mode),
      PInv m0 kb id k t0 b1 h1 mem' stk' → (∀ b, tokens = some b → b.id < h1.tick ∧ ∀ c ∈ b1, ∀ x, (c.key = some x ∨ c.value = some x) → x.id ≠ b.id) →
      free tokens s h1 = .ok ((), h') → rc = rc → b1 = buf' → y4 = .int rc →
      WP (exec (cx env fuel (d + 2)) E .run) s ⟨[.ptr (some (.stack kb, 0)), .ptr (some (J, (oj : Int))), .int n, .ptr (some (.stack k, 0)),
        y4, .ptr (some (.stack (k + 1), 0)), .ptr (some (T, 0)), y7, y8, y9, y10, y11, y12], h1, mem', stk'⟩ Q := by
    intro y3 y4 y7 y8 y9 y10 y11 y12 mem' stk' h1 b1 mode hI hb hfr _ hbb hy
    subst hbb hy
    rw [hE]
    rcases hTb with ⟨rfl, rfl, _⟩ | ⟨b, rfl, rfl, h2, _⟩
    · cases hfr
      xs []
      exact hq _ _ _ hI
    · have hne : ¬ (some (Blk.heap b.id, (0 : Int)) = some (Blk.stack (k + 1), 0)) := by simp
      xs [hne, not_false_eq_true]
      obtain ⟨hb1, hb2⟩ := hb b rfl
      show WP ((cx env fuel (d + 1 + 1)).call "l8w8jwt_free" [ptrVal (some b)]) s _ _
      refine wp_l8freeP env fuel (d + 1) (P := some b) (by exact hfr) (by exact hI.stack) ?_
      xs []
      have ht := (free_ok hfr).2.1
      exact hq _ _ _ (hI.heapUpd h2 (by omega) (by omega) hb2 none)
  have hcell := harr.cell (i := 0) (k := 0) (by split <;> simp) (by omega)
  simp only [Nat.mul_zero, Nat.zero_add, tokCells, slot, List.getD_cons_zero, List.getElem?_cons_zero] at hcell
  refine wp_loadV (c := cx env fuel (d + 2)) (by exact hcT) (by omega) (by exact hcell) (w := .int (tokCode t0'.type)) (by cases t0'.type <;> rfl) ?_
  simp only at hr
  by_cases hty : t0'.type = .object
  · rw [if_neg (by simp [hty])] at hr
    obtain ⟨⟨rc1, buf1⟩, h1, hcl, hr2⟩ := L8w8jwt.C.M.bind_inv hr
    obtain ⟨⟨⟩, h2, hfr, hr3⟩ := L8w8jwt.C.M.bind_inv hr2
    cases hr3
    rw [hty]
    xs [tokCode]
    have R := P3.rebase
    have oT : Old M kb id (k + 2) heap.tick T l := by
      rcases hTb with ⟨rfl, _⟩ | ⟨b, rfl, _, h1, h2, _⟩
      · exact ⟨hcT, by simp; omega, by simp, by intro j hj; simp; omega, by simp⟩
      · exact ⟨hcT, by simp, by simp; omega, by simp, by intro j hj; simp; omega⟩
    have oJ : Old M kb id (k + 2) heap.tick J lj :=
      ⟨P3.old hJ, hJ.ne1, hJ.ne2, fun j hj => hJ.ne3 j (by omega), fun j hj => hJ.ne4 j (by omega)⟩
    refine wp_loop3 env fuel d (T := T) (J := J) (l := l) (lj := lj) (jm := jm) (toks := t0' :: ts) (i0 := 1) oT harr oJ hjm hoj hn hnj hin' hends ?_ ?_ R ?_ ?_ hcl ?_
    · split <;> omega
    · omega
    · simp
    · simp
    intro mode y4 y7 y8 y9 y10 y11 y12 mem' stk' hI hmode
    have hI' := P3.trans rfl hI
    have hids := claimsLoop_ids hcl
    have hb : ∀ b, tokens = some b → b.id < h1.tick ∧ ∀ c ∈ buf', ∀ x, (c.key = some x ∨ c.value = some x) → x.id ≠ b.id := by
      intro b hb
      have := hI.ht
      have hlt : b.id < heap.tick := by
        rcases hTb with ⟨_, h, _⟩ | ⟨b', _, h, _, h2, _⟩
        · rw [h] at hb; cases hb
        · rw [h] at hb; cases hb; exact h2
      refine ⟨by omega, fun c hc x hx => ?_⟩
      rcases hids c hc with h | h
      · exact hnot b hb c h x hx
      · have := h x hx
        omega
    rcases hmode with ⟨rfl, rfl⟩ | ⟨rfl, rfl⟩
    · xs []
      exact final .undef _ _ _ _ _ _ _ _ _ _ _ .run hI' hb hfr rfl rfl rfl
    · xs []
      exact final .undef _ _ _ _ _ _ _ _ _ _ _ .run hI' hb hfr rfl rfl rfl
  · rw [if_pos hty] at hr
    obtain ⟨⟨⟩, h2, hfr, hr3⟩ := L8w8jwt.C.M.bind_inv hr
    cases hr3
    have : tokCode t0'.type ≠ 1 := by
      cases h : t0'.type <;> simp_all [tokCode]
    xs [this, ↓loop3_label]
    have hb : ∀ b, tokens = some b → b.id < heap.tick ∧ ∀ c ∈ buf, ∀ x, (c.key = some x ∨ c.value = some x) → x.id ≠ b.id := by
      intro b hb
      refine ⟨?_, hnot b hb⟩
      rcases hTb with ⟨_, h, _⟩ | ⟨b', _, h, _, h2, _⟩
      · rw [h] at hb; cases hb
      · rw [h] at hb; cases hb; exact h2
    exact final .undef _ _ _ _ _ _ _ _ _ _ _ .run P3 hb hfr rfl rfl rfl

/-- The text of `l8w8jwt_parse_claims` does what `parseClaims` says, for every text and every outcome of the allocations. -/
theorem wp_parse_claims (env : Env) (fuel d : Nat) {s : Sched} {st : St} {kb id : Nat} {J : Blk} {lj : List Val} {jm : Bytes} {json : Ptr} {oj n : Nat}
    {buf : List Claim} (hP : PInv st.mem kb id st.stk st.heap.tick buf st.heap st.mem st.stk)
    (hJ : Old st.mem kb id st.stk st.heap.tick J lj) (hjm : bytesFrom lj oj = jm) (hoj : oj ≤ lj.length) (hjs : json.bytes = some jm)
    (hn : n < 2147483648) (hg : ∀ i, -2147483648 ≤ (env.garbage i).end_ ∧ (env.garbage i).end_ < 2147483648)
    (hf : n + 2 < fuel) {rc : Nat} {buf' : List Claim} {h' : Heap} (hr : parseClaims env buf json n s st.heap = .ok ((rc, buf'), h'))
    {Q : Val → St → Prop}
    (hq : ∀ mem', PInv st.mem kb id st.stk st.heap.tick buf' h' mem' st.stk → Q (.int rc) { st with heap := h', mem := mem' }) :
    WP ((cx env fuel (d + 3)).call "l8w8jwt_parse_claims" [.ptr (some (.stack kb, 0)), .ptr (some (J, (oj : Int))), .int n]) s st Q := by
  rw [cx_fun _ _ _ (fn := l8w8jwt_parse_claims) rfl]
  apply wp_runFun
  rw [body_eq]
  simp only [l8w8jwt_parse_claims, Nat.reduceSub, List.replicate, List.cons_append, List.nil_append]
  unfold parseClaims at hr
  rw [hjs] at hr
  obtain ⟨_, hx, hr2⟩ := M.liftBind_inv hr
  cases hx
  obtain ⟨text, ht, hr3⟩ := M.liftBind_inv hr2
  have htl := rdN_length ht
  have hend : ∀ fr' mem' stk', PInv st.mem kb id st.stk st.heap.tick buf' h' mem' stk' → Return st Q (.ret (.int rc)) ⟨fr', h', mem', stk'⟩ := by
    intro fr' mem' stk' hI
    exact hq _ hI.drop
  obtain ⟨fr, heap, mem, k⟩ := st
  simp only at hP hJ hr3 hend hq
  xs []
  have P1 := hP.var (j := k) (stk' := k + 1) (Nat.le_refl _) (by omega) (by omega) ([] ++ List.replicate 3 .undef)
  refine wp_jsmnInit env fuel _ (b := .stack k) rfl (by exact upd_same ..) rfl ?_
  have P2 := P1.var (j := k) (stk' := k + 1) (Nat.le_refl _) (by omega) (by omega) [.int 0, .int 0, .int (-1)]
  xs []
  refine wp_jsmnCount env fuel _ (b := .stack k) rfl (by exact upd_same ..) (by exact ⟨J, oj, lj, rfl, P2.old hJ, hoj, hjm⟩) ht ?_
  have P3 := P2.var (j := k) (stk' := k + 1) (Nat.le_refl _) (by omega) (by omega) [.undef, .undef, .undef]
  obtain ⟨M, hM⟩ : ∃ M, M = upd (upd (upd mem (.stack k) (some ([] ++ List.replicate 3 .undef))) (.stack k) (some [.int 0, .int 0, .int (-1)])) (.stack k)
    (some [.undef, .undef, .undef]) := ⟨_, rfl⟩
  have hMk : M (.stack k) = some [.undef, .undef, .undef] := by rw [hM]; exact upd_same ..
  rw [← hM] at P3
  simp only [List.length_nil, Nat.sub_zero]
  rw [← hM]
  cases hres : jsmnCount text with
  | error e =>
    rw [hres] at hr3
    cases hr3
    have he : errCode e < 0 := by cases e <;> decide
    have he' : ¬ errCode e = 0 := by omega
    simp only [parseRes]
    xs [he, he']
    exact hq _ P3.drop
  | ok r =>
  rw [hres] at hr3
  simp only [parseRes, _root_.id]
  cases r with
  | zero =>
    cases hr3
    xs []
    exact hq _ P3.drop
  | succ r =>
  have hrn := jsmnCount_le hres
  simp only at hr3
  xs [wrap_u64 _ (r + 1) (by omega)]
  have P4 := P3.var (j := k + 1) (stk' := k + 2) (by omega) (by omega) (by omega) ((List.range 256).map (garbCell env))
  have hk1 : (upd M (.stack (k + 1)) (some ((List.range 256).map (garbCell env)))) (.stack k) = some [.undef, .undef, .undef] := by
    rw [upd_ne _ _ (by simp)]; exact hMk
  by_cases h64 : r + 1 ≤ 64
  · rw [if_pos h64] at hr3
    have h64' : ((r + 1 : Nat) : Int) ≤ 256 / 4 := by omega
    xs [h64']
    refine wp_pcTail env fuel d (tokens := none) P4 hk1 rfl (by exact upd_same ..) (Or.inl ⟨rfl, rfl, rfl, h64⟩) (by simp) hJ hjm hoj hn ht hres (by omega) hg hf hr3 ?_
    exact hend
  · rw [if_neg h64] at hr3
    have h64' : ¬ ((r + 1 : Nat) : Int) ≤ 256 / 4 := by omega
    xs [h64']
    obtain ⟨tok, h1, ha, hr4⟩ := L8w8jwt.C.M.bind_inv hr3
    refine wp_malloc env fuel _ ?_
    simp only
    unfold alloc at ha
    split at ha
    · rename_i hfail
      cases ha
      cases hr4
      rw [if_pos hfail]
      xs []
      exact hq _ (P4.later (h' := { heap with tick := heap.tick + 1 }) (by simp)).drop
    · rename_i hfail
      cases ha
      rw [if_neg hfail]
      xs []
      have hnew : ∀ c ∈ buf, ∀ b, (c.key = some b ∨ c.value = some b) → b.id ≠ heap.tick := by
        intro c hc b hb
        have := ((hP.held c hc).2.2.2.2 b hb).2.2
        omega
      have P5 := P4.heapUpd (h' := { tick := heap.tick + 1, live := heap.tick :: heap.live }) (j := heap.tick) (Nat.le_refl _) (by simp) (by simp) hnew
        (some (List.replicate (4 * (r + 1)) .undef))
      have hmul : (((r + 1 : Nat) : Int) * 4).toNat = 4 * (r + 1) := by omega
      rw [hmul]
      refine wp_pcTail env fuel d (tokens := some ⟨heap.tick, []⟩) P5 (by rw [upd_ne _ _ (by simp)]; exact hk1) rfl (by exact upd_same ..)
        (Or.inr ⟨⟨heap.tick, []⟩, rfl, rfl, by simp, by simp, rfl, by omega⟩) ?_ hJ hjm hoj hn ht hres (by omega) hg hf hr4 ?_
      · intro b hb
        cases hb
        exact hnew
      · exact hend

end L8w8jwt.C
