import Verif.C.HeaderProof
/-!
# Rules for the functions of mbedTLS

Memory during `write_signature` and `l8w8jwt_verify_signature`: the local variables on top of the memory of the caller, and what the
library functions of Verif/C/Mbed.lean do to it.
-/

namespace L8w8jwt.C
open L8w8jwt L8w8jwt.C.Src

/-- Where the local objects of a function are. With `L8W8JWT_SMALL_STACK` some of them are allocated on the heap; `pre` are the first few
objects and the other ones are on the stack from number `top` on. The frame begins at number `base`. -/
structure Lay where
  base : Nat
  pre : List Blk
  top : Nat
  le : base ≤ top
  nodup : pre.Nodup
  low : ∀ j, Blk.stack j ∈ pre → base ≤ j ∧ j < top
  own : ∀ b, b ∈ pre → b.own = true

/-- All local objects on the stack. -/
def Lay.of (k : Nat) : Lay := ⟨k, [], k, Nat.le_refl _, .nil, by simp, by simp⟩

/-- Object number `i`. -/
def Lay.blk (k : Lay) (i : Nat) : Blk := (k.pre[i]?).getD (.stack (k.top + (i - k.pre.length)))

/-- The number of stack objects when there are `n` objects. -/
instance : HAdd Lay Nat Nat := ⟨fun k n => k.top + (n - k.pre.length)⟩

theorem Lay.add_def (k : Lay) (n : Nat) : k + n = k.top + (n - k.pre.length) := rfl

theorem Lay.add_succ (k : Lay) {n : Nat} (h : k.pre.length ≤ n) : k + n + 1 = k + (n + 1) := by
  simp only [Lay.add_def]; omega

theorem Lay.base_le (k : Lay) (n : Nat) : k.base ≤ k + n := Nat.le_trans k.le (Nat.le_add_right _ _)

/-- The number of an object. -/
def Lay.idx (k : Lay) (b : Blk) : Option Nat :=
  if b ∈ k.pre then some (k.pre.idxOf b) else
  match b with
  | .stack j => if k.top ≤ j then some (j - k.top + k.pre.length) else none
  | _ => none

theorem Lay.blk_stack (k : Lay) {i : Nat} (h : k.pre.length ≤ i) : k.blk i = .stack (k + i) := by
  simp [Lay.blk, List.getElem?_eq_none h, Lay.add_def]

theorem Lay.blk_own (k : Lay) (i : Nat) : (k.blk i).own = true := by
  rcases Nat.lt_or_ge i k.pre.length with h | h
  · simp only [Lay.blk, List.getElem?_eq_getElem h, Option.getD_some]
    exact k.own _ (List.getElem_mem h)
  · rw [k.blk_stack h]; rfl

theorem Lay.idx_blk (k : Lay) (i : Nat) : k.idx (k.blk i) = some i := by
  rcases Nat.lt_or_ge i k.pre.length with h | h
  · simp only [Lay.blk, List.getElem?_eq_getElem h, Option.getD_some, Lay.idx]
    rw [if_pos (List.getElem_mem h), k.nodup.idxOf_getElem i h]
  · rw [k.blk_stack h]
    simp only [Lay.idx, Lay.add_def]
    rw [if_neg (fun hc => by have := k.low _ hc; omega), if_pos (by omega)]
    congr 1
    omega

theorem Lay.blk_idx (k : Lay) {b : Blk} {i : Nat} (h : k.idx b = some i) : b = k.blk i := by
  unfold Lay.idx at h
  split at h
  · rename_i hm
    cases h
    have hl := List.idxOf_lt_length_of_mem hm
    simp [Lay.blk, List.getElem?_eq_getElem hl]
  · cases b with
    | stack j =>
      simp only at h
      split at h
      · cases h
        rw [k.blk_stack (by omega), Lay.add_def]
        congr 1
        omega
      · cases h
    | _ => cases h

@[simp] theorem Lay.blk_inj (k : Lay) {i j : Nat} : k.blk i = k.blk j ↔ i = j :=
  ⟨fun h => by have := k.idx_blk i; rw [h, k.idx_blk] at this; exact (Option.some.inj this).symm, fun h => by rw [h]⟩

theorem Lay.idx_none (k : Lay) {b : Blk} (h : ∀ i, b ≠ k.blk i) : k.idx b = none := by
  cases hb : k.idx b with
  | none => rfl
  | some i => exact absurd (k.blk_idx hb) (h i)

@[simp] theorem Lay.blk_lit (k : Lay) {i : Nat} {t : Bytes} : ¬ k.blk i = .lit t := fun h => by have := k.blk_own i; rw [h] at this; cases this
@[simp] theorem Lay.blk_glob (k : Lay) {i : Nat} {t : String} : ¬ k.blk i = .glob t := fun h => by have := k.blk_own i; rw [h] at this; cases this

/-- The local objects `ex` on top of the memory `m`. -/
def stkMem (m : Blk → Option (List Val)) (k : Lay) (ex : List (List Val)) (b : Blk) : Option (List Val) :=
  match k.idx b with
  | some i => ex[i]?
  | none => m b

section
variable {m : Blk → Option (List Val)} {k : Lay} {ex : List (List Val)}

theorem stk_get (i : Nat) : stkMem m k ex (k.blk i) = ex[i]? := by simp [stkMem, k.idx_blk]

theorem stk_old {b : Blk} (h : ∀ j, b ≠ k.blk j) : stkMem m k ex b = m b := by simp [stkMem, k.idx_none h]

theorem stk_cases (b : Blk) : (∃ i, b = k.blk i) ∨ ∀ i, b ≠ k.blk i := by
  cases hb : k.idx b with
  | none => right; rintro i rfl; rw [k.idx_blk] at hb; cases hb
  | some i => exact .inl ⟨i, k.blk_idx hb⟩

theorem stk_set {i : Nat} (hi : i < ex.length) (l : List Val) :
    upd (stkMem m k ex) (k.blk i) (some l) = stkMem m k (ex.set i l) := by
  funext b
  rcases stk_cases (k := k) b with ⟨j, rfl⟩ | hb
  · rw [stk_get]
    by_cases hj : j = i
    · subst hj
      rw [upd_same, List.getElem?_set_self hi]
    · rw [upd_ne _ _ (by simpa using hj), stk_get, List.getElem?_set_ne (Ne.symm hj)]
  · rw [upd_ne _ _ (hb i), stk_old hb, stk_old hb]

theorem stk_decl (hn : k.pre.length ≤ ex.length) (l : List Val) :
    upd (stkMem m k ex) (.stack (k + ex.length)) (some l) = stkMem m k (ex ++ [l]) := by
  rw [← k.blk_stack hn]
  funext b
  rcases stk_cases (k := k) b with ⟨j, rfl⟩ | hb
  · rw [stk_get]
    by_cases hj : j = ex.length
    · subst hj
      rw [upd_same]
      simp
    · rw [upd_ne _ _ (by simpa using hj), stk_get]
      by_cases hl : j < ex.length
      · rw [List.getElem?_append_left hl]
      · rw [List.getElem?_eq_none (by omega), List.getElem?_eq_none (by simp; omega)]
  · rw [upd_ne _ _ (hb _), stk_old hb, stk_old hb]

theorem stk_upd {V : Blk} (hV : ∀ j, V ≠ k.blk j) (l : Option (List Val)) : upd (stkMem m k ex) V l = stkMem (upd m V l) k ex := by
  funext b
  by_cases hb : b = V
  · subst hb
    rw [upd_same, stk_old hV, upd_same]
  · rw [upd_ne _ _ hb]
    rcases stk_cases (k := k) b with ⟨j, rfl⟩ | hk
    · rw [stk_get, stk_get]
    · rw [stk_old hk, stk_old hk, upd_ne _ _ hb]

theorem stk_heap (i : Nat) (hi : ∀ j, .heap i ≠ k.blk j) (l : Option (List Val)) : upd (stkMem m k ex) (.heap i) l = stkMem (upd m (.heap i) l) k ex :=
  stk_upd hi l

theorem stk_of (h : ∀ i, m (k.blk i) = ex[i]?) : m = stkMem m k ex := by
  funext b
  rcases stk_cases (k := k) b with ⟨j, rfl⟩ | hk
  · rw [stk_get, h]
  · rw [stk_old hk]

theorem stk_nil (h : ∀ j, m (k.blk j) = none) : m = stkMem m k [] := stk_of (by simpa using h)

theorem stk_top (hn : k.pre.length ≤ ex.length) (j : Nat) (h : k + ex.length ≤ j) : stkMem m k ex (.stack j) = none := by
  rw [Lay.add_def] at h
  have : Blk.stack j = k.blk (j - k.top + k.pre.length) := by
    rw [k.blk_stack (by omega), Lay.add_def]; congr 1; omega
  rw [this, stk_get, List.getElem?_eq_none (by omega)]

theorem stk_over {base : Blk → Option (List Val)} (ho : Over base m) (hs : ∀ j, base (k.blk j) = none) :
    Over base (stkMem m k ex) := by
  intro b l hl
  rw [stk_old]
  · exact ho b l hl
  · rintro j rfl; rw [hs j] at hl; cases hl

theorem stk_buf {B : Blk} {bid cap : Nat} {sb : Bytes} (h : BufAt m B bid cap sb) (hB : ∀ j, B ≠ k.blk j) (hb : ∀ j, .heap bid ≠ k.blk j) :
    BufAt (stkMem m k ex) B bid cap sb := by
  obtain ⟨ho, hne, hcl, ⟨g, h1⟩, rest, h2⟩ := h
  exact ⟨ho, hne, hcl, ⟨g, by rw [stk_old hB]; exact h1⟩, rest, by rw [stk_old hb]; exact h2⟩

end

/-- `n` zero bytes. -/
def zeros (n : Nat) : List Val := cells (List.replicate n 0)

theorem zeros_length (n : Nat) : (zeros n).length = n := by simp [zeros, cells]

theorem zeros_decl (n : Nat) : [Val.int 0] ++ List.replicate (n + 1 - [Val.int 0].length) (.int 0) = zeros (n + 1) := by
  simp [zeros, cells, List.replicate_succ]

theorem poke_whole {l w : List Val} (h : w.length = l.length) : poke l 0 w = w := by
  simp [poke, h]

theorem poke_zero (b c : Bytes) : poke (cells b) 0 (cells c) = cells (c ++ b.drop c.length) := by
  simp [poke, cells]

/-- A local object: its address. -/
abbrev loc (k : Lay) (i : Nat) : Val := .ptr (some (k.blk i, 0))

section
variable {m : Blk → Option (List Val)} {k : Lay} {ex : List (List Val)} {s : Sched} {fr : List Val} {heap : Heap} {stk : Nat}

theorem pts_stk {i : Nat} {b : Bytes} (h : ex[i]? = some (cells b)) : Pts globs (stkMem m k ex) (loc k i) (some b) :=
  ⟨k.blk i, 0, cells b, rfl, (cont_own (k.blk_own i)).trans ((stk_get i).trans h), Nat.zero_le _, by
    rw [bytesFrom, List.drop_zero]
    have := toBytes_cells_append b []
    simpa [toBytes] using this⟩

theorem read_stk {c : Ctx} {i n : Nat} {l : List Val} (h : ex[i]? = some l) (hn : l.length = n) :
    readCells c (loc k i) n s ⟨fr, heap, stkMem m k ex, stk⟩ = .ok (l, ⟨fr, heap, stkMem m k ex, stk⟩) := by
  have hc : cont c.glob (stkMem m k ex) (k.blk i) = some l := (cont_own (k.blk_own i)).trans ((stk_get i).trans h)
  refine (readCells_cont (c := c) (o := 0) (st := ⟨fr, heap, stkMem m k ex, stk⟩) hc (by omega)).trans ?_
  subst hn
  simp

theorem write_stk {c : Ctx} {i : Nat} {l vs : List Val} (h : ex[i]? = some l) (hn : vs.length ≤ l.length) :
    writeCells c (loc k i) vs s ⟨fr, heap, stkMem m k ex, stk⟩ = .ok ((), ⟨fr, heap, stkMem m k (ex.set i (poke l 0 vs)), stk⟩) := by
  have hi : i < ex.length := by
    rcases Nat.lt_or_ge i ex.length with hl | hl
    · exact hl
    · rw [List.getElem?_eq_none hl] at h; cases h
  have hc : stkMem m k ex (k.blk i) = some l := (stk_get i).trans h
  simp only [writeCells, X.bind_apply, obj_own (c := c) (b := k.blk i) (st := ⟨fr, heap, stkMem m k ex, stk⟩) (k.blk_own i) hc]
  rw [if_pos ⟨by omega, by simpa using hn⟩, setObj_own (k.blk_own i)]
  simp only [stk_set hi]
  simp [poke]

theorem readBytes_pts {env : Env} {st : St} {v : Val} {b : Bytes} {n : Nat} (h : Pts globs st.mem v (some b)) (hn : n ≤ b.length) :
    readBytes (lctx env) v n s st = .ok (b.take n, st) := by
  obtain ⟨B, o, l, rfl, hB, ho, hb⟩ := h
  have hc : cont (lctx env).glob st.mem B = some l := hB
  simp only [readBytes, X.bind_apply, bytesAt, obj_cont hc]
  rw [if_neg (by omega)]
  simp only [X.pure_apply, Int.toNat_natCast]
  have : toBytes (l.drop o) = b := hb
  rw [this]
  simp [rdN, hn, X.res]

theorem infoMd_mdInfo (md : Md) : infoMd (mdInfo (some md)) = some md := by
  cases md <;> simp [infoMd, mdInfo]

theorem mdOf_code (md : Md) : mdOf (mdCode md) = some md := by cases md <;> rfl

theorem digest_length (md : Md) (h : Bytes) : (digest md h).length = md.len := by
  have : md.len ≤ 64 := by cases md <;> decide
  simp [digest, padTo]
  omega

theorem wp_reset (env : Env) (fuel d : Nat) {f : String} {i : Nat} {l init : List Val} {Q : Val → St → Prop} (hp : prog env.eddsa env.smallStack f = none)
    (hf : ∀ c cr p, mbed cr c f [p] = xReset c p init) (hl : ∀ els c p, libc els c f [p] = els f [p])
    (hlib : ∀ p, lib env f [p] = libc (mbed env.crypto (lctx env)) (lctx env) f [p])
    (h : ex[i]? = some l) (hn : init.length = l.length)
    (hq : Q .undef ⟨fr, heap, stkMem m k (ex.set i init), stk⟩) :
    WP ((cx env fuel d).call f [loc k i]) s ⟨fr, heap, stkMem m k ex, stk⟩ Q := by
  rw [cx_lib _ _ _ hp, hlib, hl, hf]
  refine ⟨_, _, ?_, hq⟩
  simp only [xReset, X.bind_apply, write_stk h (Nat.le_of_eq hn), poke_whole hn, X.pure_apply]

theorem wp_pkInit (env : Env) (fuel d : Nat) {i : Nat} {l : List Val} {Q : Val → St → Prop}
    (h : ex[i]? = some l) (hn : l.length = 4) (hq : Q .undef ⟨fr, heap, stkMem m k (ex.set i pkNone), stk⟩) :
    WP ((cx env fuel d).call "mbedtls_pk_init" [loc k i]) s ⟨fr, heap, stkMem m k ex, stk⟩ Q :=
  wp_reset env fuel d rfl (fun _ _ _ => rfl) (fun _ _ _ => rfl) (fun _ => rfl) h (by rw [hn]; rfl) hq

theorem wp_pkFree (env : Env) (fuel d : Nat) {i : Nat} {l : List Val} {Q : Val → St → Prop}
    (h : ex[i]? = some l) (hn : l.length = 4) (hq : Q .undef ⟨fr, heap, stkMem m k (ex.set i pkNone), stk⟩) :
    WP ((cx env fuel d).call "mbedtls_pk_free" [loc k i]) s ⟨fr, heap, stkMem m k ex, stk⟩ Q :=
  wp_reset env fuel d rfl (fun _ _ _ => rfl) (fun _ _ _ => rfl) (fun _ => rfl) h (by rw [hn]; rfl) hq

theorem wp_entropyInit (env : Env) (fuel d : Nat) {i : Nat} {l : List Val} {Q : Val → St → Prop}
    (h : ex[i]? = some l) (hn : l.length = 1) (hq : Q .undef ⟨fr, heap, stkMem m k (ex.set i [.int 0]), stk⟩) :
    WP ((cx env fuel d).call "mbedtls_entropy_init" [loc k i]) s ⟨fr, heap, stkMem m k ex, stk⟩ Q :=
  wp_reset env fuel d rfl (fun _ _ _ => rfl) (fun _ _ _ => rfl) (fun _ => rfl) h (by rw [hn]; rfl) hq

theorem wp_entropyFree (env : Env) (fuel d : Nat) {i : Nat} {l : List Val} {Q : Val → St → Prop}
    (h : ex[i]? = some l) (hn : l.length = 1) (hq : Q .undef ⟨fr, heap, stkMem m k (ex.set i [.int 0]), stk⟩) :
    WP ((cx env fuel d).call "mbedtls_entropy_free" [loc k i]) s ⟨fr, heap, stkMem m k ex, stk⟩ Q :=
  wp_reset env fuel d rfl (fun _ _ _ => rfl) (fun _ _ _ => rfl) (fun _ => rfl) h (by rw [hn]; rfl) hq

theorem wp_drbgInit (env : Env) (fuel d : Nat) {i : Nat} {l : List Val} {Q : Val → St → Prop}
    (h : ex[i]? = some l) (hn : l.length = 1) (hq : Q .undef ⟨fr, heap, stkMem m k (ex.set i [.int 0]), stk⟩) :
    WP ((cx env fuel d).call "mbedtls_ctr_drbg_init" [loc k i]) s ⟨fr, heap, stkMem m k ex, stk⟩ Q :=
  wp_reset env fuel d rfl (fun _ _ _ => rfl) (fun _ _ _ => rfl) (fun _ => rfl) h (by rw [hn]; rfl) hq

theorem wp_drbgFree (env : Env) (fuel d : Nat) {i : Nat} {l : List Val} {Q : Val → St → Prop}
    (h : ex[i]? = some l) (hn : l.length = 1) (hq : Q .undef ⟨fr, heap, stkMem m k (ex.set i [.int 0]), stk⟩) :
    WP ((cx env fuel d).call "mbedtls_ctr_drbg_free" [loc k i]) s ⟨fr, heap, stkMem m k ex, stk⟩ Q :=
  wp_reset env fuel d rfl (fun _ _ _ => rfl) (fun _ _ _ => rfl) (fun _ => rfl) h (by rw [hn]; rfl) hq

theorem wp_mpiInit (env : Env) (fuel d : Nat) {i : Nat} {l : List Val} {Q : Val → St → Prop}
    (h : ex[i]? = some l) (hn : l.length = 1) (hq : Q .undef ⟨fr, heap, stkMem m k (ex.set i [.int 0]), stk⟩) :
    WP ((cx env fuel d).call "mbedtls_mpi_init" [loc k i]) s ⟨fr, heap, stkMem m k ex, stk⟩ Q :=
  wp_reset env fuel d rfl (fun _ _ _ => rfl) (fun _ _ _ => rfl) (fun _ => rfl) h (by rw [hn]; rfl) hq

theorem wp_mpiFree (env : Env) (fuel d : Nat) {i : Nat} {l : List Val} {Q : Val → St → Prop}
    (h : ex[i]? = some l) (hn : l.length = 1) (hq : Q .undef ⟨fr, heap, stkMem m k (ex.set i [.int 0]), stk⟩) :
    WP ((cx env fuel d).call "mbedtls_mpi_free" [loc k i]) s ⟨fr, heap, stkMem m k ex, stk⟩ Q :=
  wp_reset env fuel d rfl (fun _ _ _ => rfl) (fun _ _ _ => rfl) (fun _ => rfl) h (by rw [hn]; rfl) hq

theorem wp_ecdsaInit (env : Env) (fuel d : Nat) {i : Nat} {l : List Val} {Q : Val → St → Prop}
    (h : ex[i]? = some l) (hn : l.length = 9) (hq : Q .undef ⟨fr, heap, stkMem m k (ex.set i ecNone), stk⟩) :
    WP ((cx env fuel d).call "mbedtls_ecdsa_init" [loc k i]) s ⟨fr, heap, stkMem m k ex, stk⟩ Q :=
  wp_reset env fuel d rfl (fun _ _ _ => rfl) (fun _ _ _ => rfl) (fun _ => rfl) h (by rw [hn]; rfl) hq

theorem wp_ecdsaFree (env : Env) (fuel d : Nat) {i : Nat} {l : List Val} {Q : Val → St → Prop}
    (h : ex[i]? = some l) (hn : l.length = 9) (hq : Q .undef ⟨fr, heap, stkMem m k (ex.set i ecNone), stk⟩) :
    WP ((cx env fuel d).call "mbedtls_ecdsa_free" [loc k i]) s ⟨fr, heap, stkMem m k ex, stk⟩ Q :=
  wp_reset env fuel d rfl (fun _ _ _ => rfl) (fun _ _ _ => rfl) (fun _ => rfl) h (by rw [hn]; rfl) hq

theorem wp_crtInit (env : Env) (fuel d : Nat) {i : Nat} {l : List Val} {Q : Val → St → Prop}
    (h : ex[i]? = some l) (hn : l.length = 4) (hq : Q .undef ⟨fr, heap, stkMem m k (ex.set i pkNone), stk⟩) :
    WP ((cx env fuel d).call "mbedtls_x509_crt_init" [loc k i]) s ⟨fr, heap, stkMem m k ex, stk⟩ Q :=
  wp_reset env fuel d rfl (fun _ _ _ => rfl) (fun _ _ _ => rfl) (fun _ => rfl) h (by rw [hn]; rfl) hq

theorem wp_crtFree (env : Env) (fuel d : Nat) {i : Nat} {l : List Val} {Q : Val → St → Prop}
    (h : ex[i]? = some l) (hn : l.length = 4) (hq : Q .undef ⟨fr, heap, stkMem m k (ex.set i pkNone), stk⟩) :
    WP ((cx env fuel d).call "mbedtls_x509_crt_free" [loc k i]) s ⟨fr, heap, stkMem m k ex, stk⟩ Q :=
  wp_reset env fuel d rfl (fun _ _ _ => rfl) (fun _ _ _ => rfl) (fun _ => rfl) h (by rw [hn]; rfl) hq

/-- Clearing a local array. -/
theorem wp_zero (env : Env) (fuel d : Nat) {i n : Nat} {l : List Val} {Q : Val → St → Prop} (h : ex[i]? = some l) (hn : l.length = n) (h0 : 0 < n)
    (hq : Q .undef ⟨fr, heap, stkMem m k (ex.set i (zeros n)), stk⟩) :
    WP ((cx env fuel d).call "mbedtls_platform_zeroize" [loc k i, .int n]) s ⟨fr, heap, stkMem m k ex, stk⟩ Q := by
  rw [cx_lib _ _ _ rfl]
  show WP (libc (mbed env.crypto (lctx env)) (lctx env) "mbedtls_platform_zeroize" [loc k i, .int n]) s _ Q
  refine ⟨_, _, ?_, hq⟩
  have hz : List.replicate n (Val.int 0) = zeros n := by simp [zeros, cells]
  have hl : (List.replicate n (Val.int 0)).length = l.length := by simp [hn]
  simp only [libc, Int.toNat_natCast]
  rw [if_neg (by omega)]
  simp only [X.bind_apply]
  rw [write_stk h (Nat.le_of_eq hl), poke_whole hl, hz]
  rfl

theorem wp_md (env : Env) (fuel d : Nat) {i n : Nat} {l : List Val} {md : Md} {v : Val} {msg : Bytes} {Q : Val → St → Prop}
    (hp : Pts globs (stkMem m k ex) v (some msg)) (hn : n ≤ msg.length) (h : ex[i]? = some l) (hl : l.length = 64)
    (h0 : env.crypto.md md (msg.take n) = none → Q (.int (-1)) ⟨fr, heap, stkMem m k ex, stk⟩)
    (h1 : ∀ x, env.crypto.md md (msg.take n) = some x →
      Q (.int 0) ⟨fr, heap, stkMem m k (ex.set i (poke l 0 (cells (digest md x)))), stk⟩) :
    WP ((cx env fuel d).call "mbedtls_md" [mdInfo (some md), v, .int n, loc k i]) s ⟨fr, heap, stkMem m k ex, stk⟩ Q := by
  rw [cx_lib _ _ _ rfl]
  show WP (xMd env.crypto (lctx env) (mdInfo (some md)) v n (loc k i)) s _ Q
  have hlen : md.len ≤ 64 := by cases md <;> decide
  simp only [xMd, infoMd_mdInfo]
  cases hm : env.crypto.md md (msg.take n) with
  | none =>
    refine ⟨_, _, ?_, h0 hm⟩
    simp only [X.bind_apply, readBytes_pts (env := env) (st := ⟨fr, heap, stkMem m k ex, stk⟩) hp hn, hm]
    rfl
  | some x =>
    refine ⟨_, _, ?_, h1 x hm⟩
    simp only [X.bind_apply, readBytes_pts (env := env) (st := ⟨fr, heap, stkMem m k ex, stk⟩) hp hn, hm]
    rw [write_stk h (by rw [cells_length, digest_length, hl]; exact hlen)]
    rfl

theorem wp_hmac (env : Env) (fuel d : Nat) {i n j : Nat} {l : List Val} {md : Md} {v u : Val} {msg key : Bytes} {Q : Val → St → Prop}
    (hk : Pts globs (stkMem m k ex) u (some key)) (hj : j ≤ key.length)
    (hp : Pts globs (stkMem m k ex) v (some msg)) (hn : n ≤ msg.length) (h : ex[i]? = some l) (hl : md.len ≤ l.length)
    (h0 : env.crypto.hmac md (key.take j) (msg.take n) = none → Q (.int (-1)) ⟨fr, heap, stkMem m k ex, stk⟩)
    (h1 : ∀ x, env.crypto.hmac md (key.take j) (msg.take n) = some x →
      Q (.int 0) ⟨fr, heap, stkMem m k (ex.set i (poke l 0 (cells (digest md x)))), stk⟩) :
    WP ((cx env fuel d).call "mbedtls_md_hmac" [mdInfo (some md), u, .int j, v, .int n, loc k i]) s ⟨fr, heap, stkMem m k ex, stk⟩ Q := by
  rw [cx_lib _ _ _ rfl]
  show WP (xHmac env.crypto (lctx env) (mdInfo (some md)) u j v n (loc k i)) s _ Q
  simp only [xHmac, infoMd_mdInfo]
  cases hm : env.crypto.hmac md (key.take j) (msg.take n) with
  | none =>
    refine ⟨_, _, ?_, h0 hm⟩
    simp only [X.bind_apply, readBytes_pts (env := env) (st := ⟨fr, heap, stkMem m k ex, stk⟩) hk hj,
      readBytes_pts (env := env) (st := ⟨fr, heap, stkMem m k ex, stk⟩) hp hn, hm]
    rfl
  | some x =>
    refine ⟨_, _, ?_, h1 x hm⟩
    simp only [X.bind_apply, readBytes_pts (env := env) (st := ⟨fr, heap, stkMem m k ex, stk⟩) hk hj,
      readBytes_pts (env := env) (st := ⟨fr, heap, stkMem m k ex, stk⟩) hp hn, hm]
    rw [write_stk h (by rw [cells_length, digest_length]; exact hl)]
    rfl

/-- The name of the entropy function. -/
abbrev entropyFn : Val := .ptr (some (.lit (str "mbedtls_entropy_func"), 0))

/-- The name of the random number function. -/
abbrev rngFn : Val := .ptr (some (.lit (str "mbedtls_ctr_drbg_random"), 0))

theorem wp_seed (env : Env) (fuel d : Nat) {i j n : Nat} {v : Val} {b : Bytes} {Q : Val → St → Prop}
    (hi : ex[i]? = some [.int 0]) (hj : ex[j]? = some [.int 0]) (hp : Pts globs (stkMem m k ex) v (some b)) (hn : n ≤ b.length)
    (h0 : env.crypto.seedOk = false → Q (.int (-1)) ⟨fr, heap, stkMem m k ex, stk⟩)
    (h1 : env.crypto.seedOk = true → Q (.int 0) ⟨fr, heap, stkMem m k (ex.set i [.int 1]), stk⟩) :
    WP ((cx env fuel d).call "mbedtls_ctr_drbg_seed" [loc k i, entropyFn, loc k j, v, .int n]) s ⟨fr, heap, stkMem m k ex, stk⟩ Q := by
  rw [cx_lib _ _ _ rfl]
  show WP (xSeed env.crypto (lctx env) (loc k i) entropyFn (loc k j) v n) s _ Q
  cases hs : env.crypto.seedOk with
  | false =>
    refine ⟨_, _, ?_, h0 hs⟩
    simp only [xSeed, X.bind_apply, read_stk (n := 1) hi rfl, read_stk (n := 1) hj rfl,
      readBytes_pts (env := env) (st := ⟨fr, heap, stkMem m k ex, stk⟩) hp hn, hs, demand]
    rfl
  | true =>
    refine ⟨_, _, ?_, h1 hs⟩
    simp only [xSeed, X.bind_apply, read_stk (n := 1) hi rfl, read_stk (n := 1) hj rfl,
      readBytes_pts (env := env) (st := ⟨fr, heap, stkMem m k ex, stk⟩) hp hn, hs, demand]
    simp only [decide_true, Bool.and_self, if_true, X.pure_apply, X.bind_apply, write_stk hi (vs := [.int 1]) (Nat.le_refl _)]
    rfl

theorem demand_true (st : St) : demand true s st = .ok ((), st) := rfl

theorem rngOk_stk {c : Ctx} {i : Nat} (hi : ex[i]? = some [.int 1]) :
    rngOk c rngFn (loc k i) s ⟨fr, heap, stkMem m k ex, stk⟩ = .ok ((), ⟨fr, heap, stkMem m k ex, stk⟩) := by
  simp [rngOk, X.bind_apply, read_stk (n := 1) hi rfl, demand, X.pure_apply]

theorem wp_parseKey (env : Env) (fuel d : Nat) {i j n q : Nat} {u w : Val} {key : Bytes} {pm pw : Option Bytes} {Q : Val → St → Prop}
    (hi : ex[i]? = some pkNone) (hj : ex[j]? = some [.int 1]) (hk : Pts globs (stkMem m k ex) u (some key)) (hn : n ≤ key.length)
    (hw : Pts globs (stkMem m k ex) (nul w) pm) (hpw : pwArg pm q = .ok pw)
    (h0 : env.crypto.parseKey (key.take n) pw = none → Q (.int (-1)) ⟨fr, heap, stkMem m k ex, stk⟩)
    (h1 : ∀ pk, env.crypto.parseKey (key.take n) pw = some pk →
      Q (.int 0) ⟨fr, heap, stkMem m k (ex.set i (pkCells 1 (key.take n) pw)), stk⟩) :
    WP ((cx env fuel d).call "mbedtls_pk_parse_key" [loc k i, u, .int n, w, .int q, rngFn, loc k j]) s ⟨fr, heap, stkMem m k ex, stk⟩ Q := by
  rw [cx_lib _ _ _ rfl]
  show WP (xParseKey env.crypto (lctx env) (loc k i) u n w q rngFn (loc k j)) s _ Q
  have e1 : X.res (pwArg pm q) s (⟨fr, heap, stkMem m k ex, stk⟩ : St) = .ok (pw, ⟨fr, heap, stkMem m k ex, stk⟩) := by
    rw [hpw]; rfl
  cases hm : env.crypto.parseKey (key.take n) pw with
  | none =>
    refine ⟨_, _, ?_, h0 hm⟩
    simp only [xParseKey, X.bind_apply, read_stk (n := 4) hi rfl, decide_true, demand_true, rngOk_stk hj,
      readBytes_pts (env := env) (st := ⟨fr, heap, stkMem m k ex, stk⟩) hk hn,
      strAt_nul (env := env) (st := ⟨fr, heap, stkMem m k ex, stk⟩) hw, Int.toNat_natCast, e1, hm]
    rfl
  | some pk =>
    refine ⟨_, _, ?_, h1 pk hm⟩
    simp only [xParseKey, X.bind_apply, read_stk (n := 4) hi rfl, decide_true, demand_true, rngOk_stk hj,
      readBytes_pts (env := env) (st := ⟨fr, heap, stkMem m k ex, stk⟩) hk hn,
      strAt_nul (env := env) (st := ⟨fr, heap, stkMem m k ex, stk⟩) hw, Int.toNat_natCast, e1, hm]
    rw [write_stk hi (vs := pkCells 1 (key.take n) pw) (Nat.le_refl _)]
    rfl

/-- A context with the key `pk`. -/
def PkIs (cr : Crypto) (l : List Val) (pk : cr.PK) : Prop := pkOf cr l = some pk ∧ l.length = 4

theorem pkIs_key {cr : Crypto} {key : Bytes} {pw : Option Bytes} {pk : cr.PK} (h : cr.parseKey key pw = some pk) : PkIs cr (pkCells 1 key pw) pk := by
  refine ⟨?_, rfl⟩
  cases pw <;> simpa [pkOf, pkCells] using h

theorem pkIs_pub {cr : Crypto} {key : Bytes} {pk : cr.PK} (h : cr.parsePublicKey key = some pk) : PkIs cr (pkCells 2 key none) pk := by
  refine ⟨?_, rfl⟩
  simpa [pkOf, pkCells] using h

theorem pkIs_crt {cr : Crypto} {key : Bytes} {pk : cr.PK} (h : cr.parseCrt key = some pk) : PkIs cr (pkCells 3 key none) pk := by
  refine ⟨?_, rfl⟩
  simpa [pkOf, pkCells] using h

theorem PkIs.set3 {cr : Crypto} {l : List Val} {pk : cr.PK} (h : PkIs cr l pk) (v : Val) : PkIs cr (l.set 3 v) pk := by
  obtain ⟨h1, h2⟩ := h
  match l, h2 with
  | [a, b, c, e], _ =>
    refine ⟨?_, rfl⟩
    simp only [List.set]
    unfold pkOf at h1 ⊢
    split at h1
    · rename_i heq
      cases heq
      exact h1
    · cases h1

theorem pkAt_stk {cr : Crypto} {c : Ctx} {i : Nat} {l : List Val} {pk : cr.PK} (h : ex[i]? = some l) (hp : PkIs cr l pk) :
    pkAt cr c (loc k i) s ⟨fr, heap, stkMem m k ex, stk⟩ = .ok ((pk, l), ⟨fr, heap, stkMem m k ex, stk⟩) := by
  simp [pkAt, X.bind_apply, read_stk h hp.2, hp.1, X.pure_apply]

theorem wp_canDo (env : Env) (fuel d : Nat) {i : Nat} {l : List Val} {pk : env.crypto.PK} {t : Int} {b : Bool} {Q : Val → St → Prop}
    (h : ex[i]? = some l) (hp : PkIs env.crypto l pk)
    (ht : ((t = 1 ∨ t = 5) ∧ b = env.crypto.canRsa pk) ∨ (t = 6 ∧ b = env.crypto.canPss pk) ∨ (t = 4 ∧ b = env.crypto.canEcdsa pk))
    (hq : Q (.ofBool b) ⟨fr, heap, stkMem m k ex, stk⟩) :
    WP ((cx env fuel d).call "mbedtls_pk_can_do" [loc k i, .int t]) s ⟨fr, heap, stkMem m k ex, stk⟩ Q := by
  rw [cx_lib _ _ _ rfl]
  show WP (xCanDo env.crypto (lctx env) (loc k i) t) s _ Q
  refine ⟨_, _, ?_, hq⟩
  simp only [xCanDo, X.bind_apply, pkAt_stk h hp]
  rcases ht with ⟨rfl | rfl, rfl⟩ | ⟨rfl, rfl⟩ | ⟨rfl, rfl⟩ <;> rfl

theorem wp_bitlen (env : Env) (fuel d : Nat) {i : Nat} {l : List Val} {pk : env.crypto.PK} {Q : Val → St → Prop}
    (h : ex[i]? = some l) (hp : PkIs env.crypto l pk)
    (hq : Q (.int (env.crypto.bitlen pk)) ⟨fr, heap, stkMem m k ex, stk⟩) :
    WP ((cx env fuel d).call "mbedtls_pk_get_bitlen" [loc k i]) s ⟨fr, heap, stkMem m k ex, stk⟩ Q := by
  rw [cx_lib _ _ _ rfl]
  show WP (do let (pk, _) ← pkAt env.crypto (lctx env) (loc k i); pure (.int (env.crypto.bitlen pk))) s _ Q
  refine ⟨_, _, ?_, hq⟩
  simp only [X.bind_apply, pkAt_stk h hp]
  rfl

theorem wp_pkRsa (env : Env) (fuel d : Nat) {i : Nat} {l : List Val} {pk : env.crypto.PK} {Q : Val → St → Prop}
    (h : ex[i]? = some l) (hp : PkIs env.crypto l pk) (hr : env.crypto.isRsa pk = true)
    (hq : Q (loc k i) ⟨fr, heap, stkMem m k ex, stk⟩) :
    WP ((cx env fuel d).call "mbedtls_pk_rsa" [loc k i]) s ⟨fr, heap, stkMem m k ex, stk⟩ Q := by
  rw [cx_lib _ _ _ rfl]
  show WP (xPkRsa env.crypto (lctx env) (loc k i)) s _ Q
  refine ⟨_, _, ?_, hq⟩
  simp only [xPkRsa, X.bind_apply, pkAt_stk h hp, hr]
  rfl

theorem wp_pkEc (env : Env) (fuel d : Nat) {i : Nat} {l : List Val} {pk : env.crypto.PK} {Q : Val → St → Prop}
    (h : ex[i]? = some l) (hp : PkIs env.crypto l pk) (hr : env.crypto.isEc pk = true)
    (hq : Q (loc k i) ⟨fr, heap, stkMem m k ex, stk⟩) :
    WP ((cx env fuel d).call "mbedtls_pk_ec" [loc k i]) s ⟨fr, heap, stkMem m k ex, stk⟩ Q := by
  rw [cx_lib _ _ _ rfl]
  show WP (xPkEc env.crypto (lctx env) (loc k i)) s _ Q
  refine ⟨_, _, ?_, hq⟩
  simp only [xPkEc, X.bind_apply, pkAt_stk h hp, hr]
  rfl

theorem wp_setPadding (env : Env) (fuel d : Nat) {i : Nat} {l : List Val} {pk : env.crypto.PK} {md : Int} {Q : Val → St → Prop}
    (h : ex[i]? = some l) (hp : PkIs env.crypto l pk)
    (hq : Q (.int 0) ⟨fr, heap, stkMem m k (ex.set i (l.set 3 (.int md))), stk⟩) :
    WP ((cx env fuel d).call "mbedtls_rsa_set_padding" [loc k i, .int 1, .int md]) s ⟨fr, heap, stkMem m k ex, stk⟩ Q := by
  rw [cx_lib _ _ _ rfl]
  show WP (xSetPadding env.crypto (lctx env) (loc k i) 1 md) s _ Q
  refine ⟨_, _, ?_, hq⟩
  have hl : (l.set 3 (.int md)).length = l.length := by simp
  simp only [xSetPadding, X.bind_apply, pkAt_stk h hp, demand, decide_true, if_true, X.pure_apply, write_stk h (Nat.le_of_eq hl), poke_whole hl]
  rfl

theorem storeLen_stk {c : Ctx} {i : Nat} {v : Val} {n : Nat} (h : ex[i]? = some [v]) :
    storeV c (.int .u64) (loc k i) (.int n) s ⟨fr, heap, stkMem m k ex, stk⟩ = .ok ((), ⟨fr, heap, stkMem m k (ex.set i [.int n]), stk⟩) := by
  have hi : i < ex.length := by
    rcases Nat.lt_or_ge i ex.length with hl | hl
    · exact hl
    · rw [List.getElem?_eq_none hl] at h; cases h
  rw [storeV_own (b := k.blk i) (st := ⟨fr, heap, stkMem m k ex, stk⟩) (k.blk_own i) ((stk_get i).trans h) (by omega) (by simp) rfl]
  simp only [stk_set hi]
  rfl

theorem wp_pkSign (env : Env) (fuel d : Nat) {i j a b e n : Nat} {l l' : List Val} {v : Val} {pk : env.crypto.PK} {md : Md} {u : Val} {hash : Bytes}
    {Q : Val → St → Prop} (h : ex[i]? = some l) (hp : PkIs env.crypto l pk) (hj : ex[j]? = some [.int 1])
    (hh : Pts globs (stkMem m k ex) u (some hash)) (hn : n ≤ hash.length) (ha : ex[a]? = some l') (hl : l'.length = e) (hb : ex[b]? = some [v]) (hab : a ≠ b)
    (h0 : env.crypto.pkSign pk md (hash.take n) = none → Q (.int (-1)) ⟨fr, heap, stkMem m k ex, stk⟩)
    (h1 : ∀ x, env.crypto.pkSign pk md (hash.take n) = some x → e < x.length → Q (.int (-1)) ⟨fr, heap, stkMem m k ex, stk⟩)
    (h2 : ∀ x, env.crypto.pkSign pk md (hash.take n) = some x → x.length ≤ e →
      Q (.int 0) ⟨fr, heap, stkMem m k ((ex.set a (poke l' 0 (cells x))).set b [.int x.length]), stk⟩) :
    WP ((cx env fuel d).call "mbedtls_pk_sign" [loc k i, .int (mdCode md), u, .int n, loc k a, .int e, loc k b, rngFn, loc k j]) s
      ⟨fr, heap, stkMem m k ex, stk⟩ Q := by
  rw [cx_lib _ _ _ rfl]
  show WP (xPkSign env.crypto (lctx env) (loc k i) (mdCode md) u n (loc k a) e (loc k b) rngFn (loc k j)) s _ Q
  cases hm : env.crypto.pkSign pk md (hash.take n) with
  | none =>
    refine ⟨_, _, ?_, h0 hm⟩
    simp only [xPkSign, X.bind_apply, pkAt_stk h hp, rngOk_stk hj,
      readBytes_pts (env := env) (st := ⟨fr, heap, stkMem m k ex, stk⟩) hh hn, mdOf_code, hm]
    rfl
  | some x =>
    by_cases hx : e < x.length
    · refine ⟨_, _, ?_, h1 x hm hx⟩
      simp only [xPkSign, X.bind_apply, pkAt_stk h hp, rngOk_stk hj,
        readBytes_pts (env := env) (st := ⟨fr, heap, stkMem m k ex, stk⟩) hh hn, mdOf_code, hm]
      rw [if_pos (by omega)]
      rfl
    · refine ⟨_, _, ?_, h2 x hm (by omega)⟩
      simp only [xPkSign, X.bind_apply, pkAt_stk h hp, rngOk_stk hj,
        readBytes_pts (env := env) (st := ⟨fr, heap, stkMem m k ex, stk⟩) hh hn, mdOf_code, hm]
      rw [if_neg (by omega)]
      simp only [X.bind_apply]
      rw [write_stk ha (by rw [cells_length]; omega)]
      simp only
      rw [storeLen_stk (v := v) (by rw [List.getElem?_set_ne hab]; exact hb)]
      rfl

theorem wp_pkVerify (env : Env) (fuel d : Nat) {i n q : Nat} {l : List Val} {pk : env.crypto.PK} {md : Md} {u w : Val} {hash sig : Bytes}
    {Q : Val → St → Prop} (h : ex[i]? = some l) (hp : PkIs env.crypto l pk)
    (hh : Pts globs (stkMem m k ex) u (some hash)) (hn : n ≤ hash.length) (hs : Pts globs (stkMem m k ex) w (some sig)) (hs' : q ≤ sig.length)
    (hq : Q (okCode (env.crypto.pkVerify pk md (hash.take n) (sig.take q))) ⟨fr, heap, stkMem m k ex, stk⟩) :
    WP ((cx env fuel d).call "mbedtls_pk_verify" [loc k i, .int (mdCode md), u, .int n, w, .int q]) s ⟨fr, heap, stkMem m k ex, stk⟩ Q := by
  rw [cx_lib _ _ _ rfl]
  show WP (xPkVerify env.crypto (lctx env) (loc k i) (mdCode md) u n w q) s _ Q
  refine ⟨_, _, ?_, hq⟩
  simp only [xPkVerify, X.bind_apply, pkAt_stk h hp, readBytes_pts (env := env) (st := ⟨fr, heap, stkMem m k ex, stk⟩) hh hn,
    readBytes_pts (env := env) (st := ⟨fr, heap, stkMem m k ex, stk⟩) hs hs', mdOf_code]
  rfl

theorem wp_pssSign (env : Env) (fuel d : Nat) {i j a n : Nat} {l l' : List Val} {pk : env.crypto.PK} {md : Md} {u : Val} {hash : Bytes}
    {Q : Val → St → Prop} (h : ex[i]? = some l) (hp : PkIs env.crypto l pk) (h3 : l[3]? = some (.int (mdCode md))) (hj : ex[j]? = some [.int 1])
    (hh : Pts globs (stkMem m k ex) u (some hash)) (hn : n ≤ hash.length) (ha : ex[a]? = some l')
    (h0 : env.crypto.pssSign pk md (hash.take n) = none → Q (.int (-1)) ⟨fr, heap, stkMem m k ex, stk⟩)
    (h2 : ∀ x, env.crypto.pssSign pk md (hash.take n) = some x → x.length ≤ l'.length ∧
      Q (.int 0) ⟨fr, heap, stkMem m k (ex.set a (poke l' 0 (cells x))), stk⟩) :
    WP ((cx env fuel d).call "mbedtls_rsa_rsassa_pss_sign" [loc k i, rngFn, loc k j, .int (mdCode md), .int n, u, loc k a]) s
      ⟨fr, heap, stkMem m k ex, stk⟩ Q := by
  rw [cx_lib _ _ _ rfl]
  show WP (xPssSign env.crypto (lctx env) (loc k i) rngFn (loc k j) (mdCode md) n u (loc k a)) s _ Q
  cases hm : env.crypto.pssSign pk md (hash.take n) with
  | none =>
    refine ⟨_, _, ?_, h0 hm⟩
    simp only [xPssSign, X.bind_apply, pkAt_stk h hp, h3, decide_true, demand_true, rngOk_stk hj,
      readBytes_pts (env := env) (st := ⟨fr, heap, stkMem m k ex, stk⟩) hh hn, mdOf_code, hm]
    rfl
  | some x =>
    obtain ⟨hx, hq⟩ := h2 x hm
    refine ⟨_, _, ?_, hq⟩
    simp only [xPssSign, X.bind_apply, pkAt_stk h hp, h3, decide_true, demand_true, rngOk_stk hj,
      readBytes_pts (env := env) (st := ⟨fr, heap, stkMem m k ex, stk⟩) hh hn, mdOf_code, hm]
    rw [write_stk ha (by rw [cells_length]; omega)]
    rfl

theorem wp_pssVerify (env : Env) (fuel d : Nat) {i n : Nat} {l : List Val} {pk : env.crypto.PK} {md : Md} {u w : Val} {hash sig : Bytes}
    {Q : Val → St → Prop} (h : ex[i]? = some l) (hp : PkIs env.crypto l pk) (h3 : l[3]? = some (.int (mdCode md)))
    (hh : Pts globs (stkMem m k ex) u (some hash)) (hn : n ≤ hash.length) (hs : Pts globs (stkMem m k ex) w (some sig))
    (hs' : env.crypto.rsaLen pk ≤ sig.length)
    (hq : Q (okCode (env.crypto.pssVerify pk md (hash.take n) (sig.take (env.crypto.rsaLen pk)))) ⟨fr, heap, stkMem m k ex, stk⟩) :
    WP ((cx env fuel d).call "mbedtls_rsa_rsassa_pss_verify" [loc k i, .int (mdCode md), .int n, u, w]) s ⟨fr, heap, stkMem m k ex, stk⟩ Q := by
  rw [cx_lib _ _ _ rfl]
  show WP (xPssVerify env.crypto (lctx env) (loc k i) (mdCode md) n u w) s _ Q
  refine ⟨_, _, ?_, hq⟩
  simp only [xPssVerify, X.bind_apply, pkAt_stk h hp, h3, decide_true, demand_true,
    readBytes_pts (env := env) (st := ⟨fr, heap, stkMem m k ex, stk⟩) hh hn,
    readBytes_pts (env := env) (st := ⟨fr, heap, stkMem m k ex, stk⟩) hs hs', mdOf_code]
  rfl

/-- The ECDSA context made from the key context `l`. -/
def ecCells (cv : Curve) (l : List Val) : List Val := .int (curveCode cv) :: (l ++ l)

theorem wp_fromKeypair (env : Env) (fuel d : Nat) {i j : Nat} {l : List Val} {pk : env.crypto.PK} {Q : Val → St → Prop}
    (hi : ex[i]? = some ecNone) (h : ex[j]? = some l) (hp : PkIs env.crypto l pk)
    (h0 : env.crypto.ecOk pk = false → Q (.int (-1)) ⟨fr, heap, stkMem m k ex, stk⟩)
    (h1 : env.crypto.ecOk pk = true → Q (.int 0) ⟨fr, heap, stkMem m k (ex.set i (ecCells (env.crypto.grpId pk) l)), stk⟩) :
    WP ((cx env fuel d).call "mbedtls_ecdsa_from_keypair" [loc k i, loc k j]) s ⟨fr, heap, stkMem m k ex, stk⟩ Q := by
  rw [cx_lib _ _ _ rfl]
  show WP (xFromKeypair env.crypto (lctx env) (loc k i) (loc k j)) s _ Q
  have hl : (ecCells (env.crypto.grpId pk) l).length = ecNone.length := by simp [ecCells, hp.2, ecNone, pkNone]
  cases he : env.crypto.ecOk pk with
  | false =>
    refine ⟨_, _, ?_, h0 he⟩
    simp only [xFromKeypair, X.bind_apply, read_stk (n := 9) hi rfl, decide_true, demand_true, pkAt_stk h hp, he]
    rfl
  | true =>
    refine ⟨_, _, ?_, h1 he⟩
    simp only [xFromKeypair, X.bind_apply, read_stk (n := 9) hi rfl, decide_true, demand_true, pkAt_stk h hp, he, if_true]
    rw [show (Val.int (curveCode (env.crypto.grpId pk)) :: (l ++ l)) = ecCells (env.crypto.grpId pk) l from rfl, write_stk hi (Nat.le_of_eq hl),
      poke_whole hl]
    rfl

/-- A read inside a local object. -/
theorem read_part {c : Ctx} {i o n : Nat} {l : List Val} (h : ex[i]? = some l) (hn : o + n ≤ l.length) :
    readCells c (.ptr (some (k.blk i, (o : Int)))) n s ⟨fr, heap, stkMem m k ex, stk⟩ =
      .ok ((l.drop o).take n, ⟨fr, heap, stkMem m k ex, stk⟩) :=
  readCells_cont (c := c) (st := ⟨fr, heap, stkMem m k ex, stk⟩) ((cont_own (k.blk_own i)).trans ((stk_get i).trans h)) hn

theorem pkAt_ec {cr : Crypto} {c : Ctx} {i o : Nat} {cv : Curve} {l : List Val} {pk : cr.PK} (h : ex[i]? = some (ecCells cv l)) (hp : PkIs cr l pk)
    (ho : o = 1 ∨ o = 5) :
    pkAt cr c (.ptr (some (k.blk i, (o : Int)))) s ⟨fr, heap, stkMem m k ex, stk⟩ = .ok ((pk, l), ⟨fr, heap, stkMem m k ex, stk⟩) := by
  have hl := hp.2
  have hr := read_part (c := c) (m := m) (k := k) (s := s) (fr := fr) (heap := heap) (stk := stk) (o := o) (n := 4) h
    (by simp [ecCells, hl]; omega)
  have : ((ecCells cv l).drop o).take 4 = l := by
    rcases ho with rfl | rfl
    · simp [ecCells, ← hl]
    · have : (ecCells cv l).drop 5 = l := by simp [ecCells, ← hl]
      rw [this, ← hl]; simp
  rw [this] at hr
  simp [pkAt, X.bind_apply, hr, hp.1, X.pure_apply]

theorem grp_ec {c : Ctx} {i : Nat} {cv : Curve} {l : List Val} (h : ex[i]? = some (ecCells cv l)) :
    readCells c (loc k i) 1 s ⟨fr, heap, stkMem m k ex, stk⟩ = .ok ([.int (curveCode cv)], ⟨fr, heap, stkMem m k ex, stk⟩) :=
  read_part (c := c) (o := 0) h (by simp [ecCells])

theorem mpiAt_stk {c : Ctx} {i : Nat} {v : Int} (h : ex[i]? = some [.int v]) :
    mpiAt c (loc k i) s ⟨fr, heap, stkMem m k ex, stk⟩ = .ok (v, ⟨fr, heap, stkMem m k ex, stk⟩) := by
  simp only [mpiAt, X.bind_apply, read_stk (n := 1) h rfl]
  rfl

theorem wp_ecdsaSign (env : Env) (fuel d : Nat) {i a b j n : Nat} {l : List Val} {pk : env.crypto.PK} {va vb : Int} {u : Val} {hash : Bytes}
    {Q : Val → St → Prop} (hi : ex[i]? = some (ecCells (env.crypto.grpId pk) l)) (hp : PkIs env.crypto l pk)
    (ha : ex[a]? = some [.int va]) (hb : ex[b]? = some [.int vb]) (hab : a ≠ b) (hj : ex[j]? = some [.int 1])
    (hh : Pts globs (stkMem m k ex) u (some hash)) (hn : n ≤ hash.length)
    (h0 : env.crypto.ecdsaSign pk (hash.take n) = none → Q (.int (-1)) ⟨fr, heap, stkMem m k ex, stk⟩)
    (h1 : ∀ (x y : Nat), env.crypto.ecdsaSign pk (hash.take n) = some (x, y) →
      Q (.int 0) ⟨fr, heap, stkMem m k ((ex.set a [.int x]).set b [.int y]), stk⟩) :
    WP ((cx env fuel d).call "mbedtls_ecdsa_sign" [loc k i, loc k a, loc k b, .ptr (some (k.blk i, 1)), u, .int n, rngFn, loc k j]) s
      ⟨fr, heap, stkMem m k ex, stk⟩ Q := by
  rw [cx_lib _ _ _ rfl]
  show WP (xEcdsaSign env.crypto (lctx env) (loc k i) (loc k a) (loc k b) (.ptr (some (k.blk i, ((1 : Nat) : Int)))) u n rngFn (loc k j)) s _ Q
  cases hm : env.crypto.ecdsaSign pk (hash.take n) with
  | none =>
    refine ⟨_, _, ?_, h0 hm⟩
    simp only [xEcdsaSign, X.bind_apply, pkAt_ec hi hp (o := 1) (Or.inl rfl), grp_ec hi, decide_true, demand_true, mpiAt_stk ha, mpiAt_stk hb,
      rngOk_stk hj, readBytes_pts (env := env) (st := ⟨fr, heap, stkMem m k ex, stk⟩) hh hn, hm]
    rfl
  | some xy =>
    obtain ⟨x, y⟩ := xy
    refine ⟨_, _, ?_, h1 x y hm⟩
    simp only [xEcdsaSign, X.bind_apply, pkAt_ec hi hp (o := 1) (Or.inl rfl), grp_ec hi, decide_true, demand_true, mpiAt_stk ha, mpiAt_stk hb,
      rngOk_stk hj, readBytes_pts (env := env) (st := ⟨fr, heap, stkMem m k ex, stk⟩) hh hn, hm]
    rw [write_stk ha (vs := [.int x]) (Nat.le_refl _)]
    simp only
    rw [write_stk (l := [.int vb]) (vs := [.int y]) (by rw [List.getElem?_set_ne hab]; exact hb) (Nat.le_refl _)]
    rfl

theorem wp_ecdsaVerify (env : Env) (fuel d : Nat) {i a b n : Nat} {l : List Val} {pk : env.crypto.PK} {va vb : Nat} {u : Val} {hash : Bytes}
    {Q : Val → St → Prop} (hi : ex[i]? = some (ecCells (env.crypto.grpId pk) l)) (hp : PkIs env.crypto l pk)
    (ha : ex[a]? = some [.int va]) (hb : ex[b]? = some [.int vb])
    (hh : Pts globs (stkMem m k ex) u (some hash)) (hn : n ≤ hash.length)
    (hq : Q (okCode (env.crypto.ecdsaVerify pk (hash.take n) va vb)) ⟨fr, heap, stkMem m k ex, stk⟩) :
    WP ((cx env fuel d).call "mbedtls_ecdsa_verify" [loc k i, u, .int n, .ptr (some (k.blk i, 5)), loc k a, loc k b]) s
      ⟨fr, heap, stkMem m k ex, stk⟩ Q := by
  rw [cx_lib _ _ _ rfl]
  show WP (xEcdsaVerify env.crypto (lctx env) (loc k i) u n (.ptr (some (k.blk i, ((5 : Nat) : Int)))) (loc k a) (loc k b)) s _ Q
  refine ⟨_, _, ?_, hq⟩
  simp only [xEcdsaVerify, X.bind_apply, pkAt_ec hi hp (o := 5) (Or.inr rfl), grp_ec hi, decide_true, demand_true,
    readBytes_pts (env := env) (st := ⟨fr, heap, stkMem m k ex, stk⟩) hh hn, mpiAt_stk ha, mpiAt_stk hb, Int.toNat_natCast]
  rfl

theorem write_part {c : Ctx} {i o : Nat} {l vs : List Val} (h : ex[i]? = some l) (hn : o + vs.length ≤ l.length) :
    writeCells c (.ptr (some (k.blk i, (o : Int)))) vs s ⟨fr, heap, stkMem m k ex, stk⟩ =
      .ok ((), ⟨fr, heap, stkMem m k (ex.set i (poke l o vs)), stk⟩) := by
  have hi : i < ex.length := by
    rcases Nat.lt_or_ge i ex.length with hl | hl
    · exact hl
    · rw [List.getElem?_eq_none hl] at h; cases h
  have hc : stkMem m k ex (k.blk i) = some l := (stk_get i).trans h
  simp only [writeCells, X.bind_apply, obj_own (c := c) (b := k.blk i) (st := ⟨fr, heap, stkMem m k ex, stk⟩) (k.blk_own i) hc]
  rw [if_pos ⟨by omega, by simpa using hn⟩, setObj_own (k.blk_own i)]
  simp only [stk_set hi]
  simp [poke]

theorem mpiWrite_length {x n : Nat} {b : Bytes} (h : mpiWrite x n = some b) : b.length = n := by
  unfold mpiWrite at h
  split at h
  · cases h; simp
  · cases h

theorem wp_mpiWrite (env : Env) (fuel d : Nat) {i a o n : Nat} {x : Nat} {l : List Val} {Q : Val → St → Prop}
    (hi : ex[i]? = some [.int x]) (ha : ex[a]? = some l) (hl : o + n ≤ l.length)
    (h0 : mpiWrite x n = none → Q (.int (-1)) ⟨fr, heap, stkMem m k ex, stk⟩)
    (h1 : ∀ b, mpiWrite x n = some b → Q (.int 0) ⟨fr, heap, stkMem m k (ex.set a (poke l o (cells b))), stk⟩) :
    WP ((cx env fuel d).call "mbedtls_mpi_write_binary" [loc k i, .ptr (some (k.blk a, (o : Int))), .int n]) s
      ⟨fr, heap, stkMem m k ex, stk⟩ Q := by
  rw [cx_lib _ _ _ rfl]
  show WP (xMpiWrite (lctx env) (loc k i) (.ptr (some (k.blk a, (o : Int)))) n) s _ Q
  cases hm : mpiWrite x n with
  | none =>
    refine ⟨_, _, ?_, h0 hm⟩
    simp only [xMpiWrite, X.bind_apply, mpiAt_stk hi, Int.toNat_natCast, hm]
    rfl
  | some b =>
    refine ⟨_, _, ?_, h1 b hm⟩
    simp only [xMpiWrite, X.bind_apply, mpiAt_stk hi, Int.toNat_natCast, hm]
    rw [write_part ha (by rw [cells_length, mpiWrite_length hm]; exact hl)]
    rfl

theorem wp_mpiRead (env : Env) (fuel d : Nat) {i n : Nat} {x : Int} {u : Val} {b : Bytes} {Q : Val → St → Prop}
    (hi : ex[i]? = some [.int x]) (hh : Pts globs (stkMem m k ex) u (some b)) (hn : n ≤ b.length)
    (hq : Q (.int 0) ⟨fr, heap, stkMem m k (ex.set i [.int (mpiRead (b.take n))]), stk⟩) :
    WP ((cx env fuel d).call "mbedtls_mpi_read_binary" [loc k i, u, .int n]) s ⟨fr, heap, stkMem m k ex, stk⟩ Q := by
  rw [cx_lib _ _ _ rfl]
  show WP (xMpiRead (lctx env) (loc k i) u n) s _ Q
  refine ⟨_, _, ?_, hq⟩
  simp only [xMpiRead, X.bind_apply, mpiAt_stk hi, readBytes_pts (env := env) (st := ⟨fr, heap, stkMem m k ex, stk⟩) hh hn]
  rw [write_stk hi (vs := [.int (mpiRead (b.take n))]) (Nat.le_refl _)]
  rfl

theorem wp_edSign (env : Env) (fuel d : Nat) {a n : Nat} {u w : Val} {msg key : Bytes} {l : List Val} {Q : Val → St → Prop}
    (hm : Pts globs (stkMem m k ex) u (some msg)) (hn : n ≤ msg.length) (hk : Pts globs (stkMem m k ex) w (some key)) (hk' : key.length = 65)
    (ha : ex[a]? = some l) (hl : 64 ≤ l.length)
    (hq : Q .undef ⟨fr, heap, stkMem m k (ex.set a (poke l 0 (cells ((padTo 64 (env.crypto.edSign (msg.take n) key)).take 64)))), stk⟩) :
    WP ((cx env fuel d).call "ed25519_sign_ref10" [loc k a, u, .int n, w]) s ⟨fr, heap, stkMem m k ex, stk⟩ Q := by
  rw [cx_lib _ _ _ rfl]
  show WP (xEdSign env.crypto (lctx env) (loc k a) u n w) s _ Q
  refine ⟨_, _, ?_, hq⟩
  have h65 : ((65 : Int)) = ((65 : Nat) : Int) := rfl
  simp only [xEdSign, X.bind_apply, readBytes_pts (env := env) (st := ⟨fr, heap, stkMem m k ex, stk⟩) hm hn]
  rw [h65, readBytes_pts (env := env) (st := ⟨fr, heap, stkMem m k ex, stk⟩) hk (by omega), ← hk', List.take_length]
  simp only
  rw [write_stk ha (by rw [cells_length, List.length_take]; omega)]
  rfl

theorem wp_edVerify (env : Env) (fuel d : Nat) {n : Nat} {t u w : Val} {sig msg key : Bytes} {Q : Val → St → Prop}
    (hs : Pts globs (stkMem m k ex) t (some sig)) (hs' : 64 ≤ sig.length)
    (hm : Pts globs (stkMem m k ex) u (some msg)) (hn : n ≤ msg.length) (hk : Pts globs (stkMem m k ex) w (some key)) (hk' : 32 ≤ key.length)
    (hq : Q (.ofBool (env.crypto.edVerify (sig.take 64) (msg.take n) (key.take 32))) ⟨fr, heap, stkMem m k ex, stk⟩) :
    WP ((cx env fuel d).call "ed25519_verify" [t, u, .int n, w]) s ⟨fr, heap, stkMem m k ex, stk⟩ Q := by
  rw [cx_lib _ _ _ rfl]
  show WP (xEdVerify env.crypto (lctx env) t u n w) s _ Q
  refine ⟨_, _, ?_, hq⟩
  have h64 := readBytes_pts (env := env) (s := s) (st := ⟨fr, heap, stkMem m k ex, stk⟩) hs hs'
  have h32 := readBytes_pts (env := env) (s := s) (st := ⟨fr, heap, stkMem m k ex, stk⟩) hk hk'
  simp only [Int.cast_ofNat_Int] at h64 h32
  simp only [xEdVerify, X.bind_apply, h64, h32, readBytes_pts (env := env) (st := ⟨fr, heap, stkMem m k ex, stk⟩) hm hn]
  rfl

end

end L8w8jwt.C
