import Verif.C.Base64DecProof
/-!
# Rules for the functions of chillbuff
-/

namespace L8w8jwt.C

/-- The object `b` is a `struct chillbuff` with `len` elements of `es` cells each; its array is the heap block `id`. -/
def BufC (mem : Blk → Option (List Val)) (b : Blk) (id cap es len : Nat) (content : List Val) : Prop :=
  b.own = true ∧ b ≠ .heap id ∧ content.length = len * es ∧
    (∃ g, mem b = some [.ptr (some (.heap id, 0)), .int len, .int cap, .int es, g]) ∧ ∃ rest, mem (.heap id) = some (content ++ rest)

/-- Only the two objects have changed. -/
def Frame (mem mem' : Blk → Option (List Val)) (b : Blk) (id : Nat) : Prop :=
  ∀ x, x ≠ b → x ≠ .heap id → mem' x = mem x

theorem Frame.trans {m1 m2 m3 : Blk → Option (List Val)} {b : Blk} {id : Nat} (h1 : Frame m1 m2 b id) (h2 : Frame m2 m3 b id) :
    Frame m1 m3 b id := fun x hx hi => (h2 x hx hi).trans (h1 x hx hi)

theorem Frame.refl {m1 : Blk → Option (List Val)} {b : Blk} {id : Nat} : Frame m1 m1 b id := fun _ _ _ => rfl

/-- How many elements `chillbuff_push_back` appends. -/
def grown (s : Sched) (h : Heap) (cap len n : Nat) : Nat :=
  match s.failGrow h.tick with
  | none => n
  | some j => if cap ≤ len + j then min j n else n

theorem growBy_apply (cap len n : Nat) (s : Sched) (st : St) :
    growBy cap len n s st = .ok (grown s st.heap cap len n, { st with heap := { st.heap with tick := st.heap.tick + 1 } }) := rfl

theorem grown_le (s : Sched) (h : Heap) (cap len n : Nat) : grown s h cap len n ≤ n := by
  unfold grown
  split
  · exact Nat.le_refl _
  · split
    · exact Nat.min_le_right _ _
    · exact Nat.le_refl _

theorem readCells_cont {c : Ctx} {b : Blk} {o n : Nat} {s : Sched} {st : St} {l : List Val} (h : cont c.glob st.mem b = some l)
    (hl : o + n ≤ l.length) : readCells c (.ptr (some (b, (o : Int)))) n s st = .ok ((l.drop o).take n, st) := by
  simp only [readCells, X.bind_apply, obj_cont h]
  rw [if_pos ⟨by omega, by simpa using hl⟩]
  rfl

theorem writeCells_own {c : Ctx} {b : Blk} {s : Sched} {st : St} {l w : List Val} (hb : b.own = true) (h : st.mem b = some l)
    (hl : w.length = l.length) :
    writeCells c (.ptr (some (b, 0))) w s st = .ok ((), { st with mem := upd st.mem b (some w) }) := by
  simp only [writeCells, X.bind_apply, obj_own hb h]
  rw [if_pos ⟨by omega, by simp; omega⟩, setObj_own hb]
  simp [hl]

theorem wp_writeCells_own {c : Ctx} {b : Blk} {s : Sched} {st : St} {l w : List Val} {Q : Unit → St → Prop} (hb : b.own = true)
    (h : st.mem b = some l) (hl : w.length = l.length) (hq : Q () { st with mem := upd st.mem b (some w) }) :
    WP (writeCells c (.ptr (some (b, 0))) w) s st Q := by
  rw [wp_of_eq (writeCells_own hb h hl)]
  exact hq

/-- `chillbuff_push_back` -/
theorem wp_pushC (env : Env) (fuel d : Nat) {b : Blk} {q : Val} {id cap es len n : Nat} {content src : List Val} {s : Sched} {st : St}
    {Q : Val → St → Prop} (hb : BufC st.mem b id cap es len content)
    (hsrc : n ≠ 0 → readCells (lctx env) q (n * es) s st = .ok (src, st)) (hs0 : n = 0 → src = []) (hlen : src.length = n * es)
    (hq : ∀ v mem', BufC mem' b id cap es (len + grown s st.heap cap len n) (content ++ src.take (grown s st.heap cap len n * es)) →
      Frame st.mem mem' b id → Q v { st with heap := { st.heap with tick := st.heap.tick + 1 }, mem := mem' }) :
    WP ((cx env fuel d).call "chillbuff_push_back" [.ptr (some (b, 0)), q, .int n]) s st Q := by
  obtain ⟨ho, hne, hcl, ⟨g, hstruct⟩, rest, harr⟩ := hb
  rw [cx_lib _ _ _ rfl]
  show WP (xBufPush (lctx env) (.ptr (some (b, 0))) q n) s st Q
  have e1 : readCells (lctx env) (.ptr (some (b, 0))) 5 s st =
      .ok ([.ptr (some (.heap id, 0)), .int len, .int cap, .int es, g], st) :=
    readCells_cont (c := lctx env) (o := 0) ((cont_own ho).trans hstruct) (by simp)
  have e2 : (if (n : Int) = 0 then pure [] else readCells (lctx env) q ((n : Int).toNat * (es : Int).toNat) : X (List Val)) s st = .ok (src, st) := by
    by_cases hn : n = 0
    · rw [if_pos (by omega), hs0 hn]; rfl
    · rw [if_neg (by omega)]
      simp only [Int.toNat_natCast]
      exact hsrc hn
  have e3 : obj (lctx env) (.heap id) s st = .ok (content ++ rest, st) := obj_own rfl harr
  have htake : (content ++ rest).take (len * es) = content := by rw [← hcl]; simp
  refine ⟨_, _, ?_, hq (.int (if ((grown s st.heap cap len n : Nat) : Int) = n then 0 else 1))
    (upd (upd st.mem (.heap id) (some (content ++ src.take (grown s st.heap cap len n * es) ++
      (content ++ rest).drop (content ++ src.take (grown s st.heap cap len n * es)).length))) b
      (some [.ptr (some (.heap id, 0)), .int ((len + grown s st.heap cap len n : Nat) : Int), .int cap, .int es, g])) ?_ ?_⟩
  · unfold xBufPush
    rw [X.bind_apply, e1]
    simp only
    rw [X.bind_apply, e2]
    simp only
    rw [X.bind_apply, e3]
    simp only
    rw [X.bind_apply, growBy_apply]
    simp only [Int.toNat_natCast, htake]
    rw [X.bind_apply, setObj_own rfl]
    simp only
    rw [X.bind_apply, writeCells_own (l := [.ptr (some (.heap id, 0)), .int len, .int cap, .int es, g])
      (w := [.ptr (some (.heap id, 0)), .int (len + grown s st.heap cap len n), .int cap, .int es, g]) ho ?_ (by rfl)]
    · simp only [X.pure_apply, Int.natCast_add]
    · show upd _ _ _ b = _
      rw [upd_ne _ _ hne]
      exact hstruct
  · refine ⟨ho, hne, ?_, ⟨g, by rw [upd_same]⟩, ?_⟩
    · have := Nat.mul_le_mul_right es (grown_le s st.heap cap len n)
      rw [List.length_append, List.length_take, hcl, hlen, Nat.min_eq_left this, Nat.add_mul]
    · refine ⟨(content ++ rest).drop (content ++ src.take (grown s st.heap cap len n * es)).length, ?_⟩
      rw [upd_ne _ _ (Ne.symm hne), upd_same]
  · intro x hx hi
    rw [upd_ne _ _ hx, upd_ne _ _ hi]

/-- A `struct chillbuff` of bytes. -/
def BufAt (mem : Blk → Option (List Val)) (b : Blk) (id cap : Nat) (buf : Bytes) : Prop := BufC mem b id cap 1 buf.length (cells buf)

theorem push_eq {α : Type} (cap : Nat) (buf xs : List α) (s : Sched) (h : Heap) :
    push cap buf xs s h = .ok (buf ++ xs.take (grown s h cap buf.length xs.length), { h with tick := h.tick + 1 }) := by
  unfold push grown
  cases s.failGrow h.tick with
  | none => simp
  | some j =>
    simp only
    split
    · rw [← List.take_eq_take_min]
    · simp

theorem readCells_pts {env : Env} {q : Val} {m : Bytes} {n : Nat} {s : Sched} {st : St} (h : Pts globs st.mem q (some m))
    (hn : n ≤ m.length) : readCells (lctx env) q n s st = .ok (cells (m.take n), st) := by
  obtain ⟨b, o, l, rfl, hl, ho, rfl⟩ := h
  have hle : o + n ≤ l.length := by
    have := toBytes_length_le (l.drop o)
    simp only [bytesFrom] at hn
    simp at this
    omega
  rw [readCells_cont (c := lctx env) hl hle]
  congr 2
  apply List.ext_getElem?
  intro i
  by_cases hi : i < n
  · have : i < (bytesFrom l o).length := by omega
    have hx := List.getElem?_eq_getElem this
    rw [List.getElem?_take_of_lt hi, List.getElem?_drop, bytesFrom_get hx, cells_get, List.getElem?_take_of_lt hi, hx]
    rfl
  · rw [List.getElem?_eq_none (by simp; omega), List.getElem?_eq_none (by simp [cells]; omega)]

/-- `chillbuff_push_back` of bytes. -/
theorem wp_push (env : Env) (fuel d : Nat) {b : Blk} {q : Val} {id cap n : Nat} {buf buf' m : Bytes} {s : Sched} {st : St} {h' : Heap}
    {Q : Val → St → Prop} (hb : BufAt st.mem b id cap buf) (hsrc : n ≠ 0 → Pts globs st.mem q (some m)) (hn : n ≤ m.length)
    (hp : push cap buf (m.take n) s st.heap = .ok (buf', h'))
    (hq : ∀ v mem', BufAt mem' b id cap buf' → Frame st.mem mem' b id → Q v { st with heap := h', mem := mem' }) :
    WP ((cx env fuel d).call "chillbuff_push_back" [.ptr (some (b, 0)), q, .int n]) s st Q := by
  rw [push_eq, List.length_take, Nat.min_eq_left hn] at hp
  cases hp
  refine wp_pushC env fuel d (es := 1) (src := cells (m.take n)) hb ?_ ?_ ?_ ?_
  · intro h0
    rw [Nat.mul_one]
    exact readCells_pts (hsrc h0) hn
  · rintro rfl; rfl
  · rw [cells_length, List.length_take, Nat.min_eq_left hn, Nat.mul_one]
  · intro v mem' h1 h2
    refine hq v mem' ?_ h2
    have hk := grown_le s st.heap cap buf.length n
    unfold BufAt
    rw [cells_append, List.length_append, List.length_take, List.length_take]
    have e1 : min (grown s st.heap cap buf.length n) (min n m.length) = grown s st.heap cap buf.length n := by omega
    rw [e1]
    have e2 : cells ((m.take n).take (grown s st.heap cap buf.length n)) = (cells (m.take n)).take (grown s st.heap cap buf.length n * 1) := by
      simp [cells]
    rw [e2]
    exact h1

/-- `chillbuff_clear` -/
theorem wp_clear (env : Env) (fuel d : Nat) {b : Blk} {id cap : Nat} {buf : Bytes} {s : Sched} {st : St}
    {Q : Val → St → Prop} (hb : BufAt st.mem b id cap buf)
    (hq : ∀ v mem', BufAt mem' b id cap [] → Frame st.mem mem' b id → Q v { st with mem := mem' }) :
    WP ((cx env fuel d).call "chillbuff_clear" [.ptr (some (b, 0))]) s st Q := by
  obtain ⟨ho, hne, hcl, ⟨g, hstruct⟩, rest, harr⟩ := hb
  rw [cx_lib _ _ _ rfl]
  show WP (xBufClear (lctx env) (.ptr (some (b, 0)))) s st Q
  have e1 : readCells (lctx env) (.ptr (some (b, 0))) 5 s st =
      .ok ([.ptr (some (.heap id, 0)), .int buf.length, .int cap, .int (1 : Nat), g], st) :=
    readCells_cont (c := lctx env) (o := 0) ((cont_own ho).trans hstruct) (by simp)
  have e3 : obj (lctx env) (.heap id) s st = .ok (cells buf ++ rest, st) := obj_own rfl harr
  refine ⟨_, _, ?_, hq .undef
    (upd (upd st.mem (.heap id) (some (List.replicate (min (((buf.length : Nat) : Int).toNat * ((1 : Nat) : Int).toNat) (cells buf ++ rest).length) (.int 0) ++
      (cells buf ++ rest).drop (((buf.length : Nat) : Int).toNat * ((1 : Nat) : Int).toNat)))) b
      (some [.ptr (some (.heap id, 0)), .int 0, .int cap, .int (1 : Nat), g])) ?_ ?_⟩
  · unfold xBufClear
    rw [X.bind_apply, e1]
    simp only
    rw [X.bind_apply, e3]
    simp only
    rw [X.bind_apply, setObj_own rfl]
    simp only
    rw [X.bind_apply, writeCells_own (l := [.ptr (some (.heap id, 0)), .int buf.length, .int cap, .int (1 : Nat), g])
      (w := [.ptr (some (.heap id, 0)), .int 0, .int cap, .int (1 : Nat), g]) ho ?_ (by rfl)]
    · simp only [X.pure_apply]
    · show upd _ _ _ b = _
      rw [upd_ne _ _ hne]
      exact hstruct
  · refine ⟨ho, hne, rfl, ⟨g, by rw [upd_same]; rfl⟩, ?_⟩
    exact ⟨_, by rw [upd_ne _ _ (Ne.symm hne), upd_same]; rfl⟩
  · intro x hx hi
    rw [upd_ne _ _ hx, upd_ne _ _ hi]

/-- `chillbuff_init` on an uninitialised local object. -/
theorem wp_init (env : Env) (fuel d : Nat) {b : Blk} {cap es g : Nat} {s : Sched} {st : St} {l : List Val}
    {Q : Val → St → Prop} (ho : b.own = true) (hb : st.mem b = some l) (hl : l.length = 5) (hne : b ≠ .heap st.heap.tick)
    (hq : if s.failAlloc st.heap.tick then ∀ mem', Frame st.mem mem' b st.heap.tick → mem' (.heap st.heap.tick) = st.mem (.heap st.heap.tick) →
          Q (.int 1) { st with heap := { st.heap with tick := st.heap.tick + 1 }, mem := mem' }
      else ∀ mem', BufC mem' b st.heap.tick cap es 0 [] → Frame st.mem mem' b st.heap.tick →
        Q (.int 0) { st with heap := { tick := st.heap.tick + 1, live := st.heap.tick :: st.heap.live }, mem := mem' }) :
    WP ((cx env fuel d).call "chillbuff_init" [.ptr (some (b, 0)), .int cap, .int es, .int g]) s st Q := by
  rw [cx_lib _ _ _ rfl]
  show WP (xBufInit (lctx env) (.ptr (some (b, 0))) cap es g) s st Q
  unfold xBufInit
  rw [wp_bind]
  unfold xAlloc
  split at hq
  · rename_i hf
    refine ⟨_, _, if_pos hf, ?_⟩
    simp only
    rw [wp_bind]
    refine wp_writeCells_own ho hb (by rw [hl]; rfl) ?_
    rw [wp_pure]
    refine hq _ ?_ ?_
    · intro x hx hi
      rw [upd_ne _ _ hx]
    · rw [upd_ne _ _ (Ne.symm hne)]
  · rename_i hf
    refine ⟨_, _, if_neg hf, ?_⟩
    simp only
    rw [wp_bind]
    refine wp_writeCells_own (l := l) ho ?_ (by rw [hl]; rfl) ?_
    · show upd _ _ _ b = _
      rw [upd_ne _ _ hne]
      exact hb
    rw [wp_pure]
    refine hq _ ?_ ?_
    · refine ⟨ho, hne, by simp, ⟨_, by rw [upd_same]; rfl⟩, ?_⟩
      exact ⟨_, by rw [upd_ne _ _ (Ne.symm hne)]; exact upd_same _ _ _⟩
    · intro x hx hi
      simp only [upd]
      rw [if_neg hx, if_neg hi]

/-- `chillbuff_free` -/
theorem wp_bufFree (env : Env) (fuel d : Nat) {b : Blk} {id cap es len : Nat} {content : List Val} {s : Sched} {st : St}
    {Q : Val → St → Prop} (hb : BufC st.mem b id cap es len content) (hl : id ∈ st.heap.live)
    (hq : ∀ v mem', (∃ l, mem' b = some l) → mem' (.heap id) = none → Frame st.mem mem' b id →
      Q v { st with heap := { st.heap with live := st.heap.live.erase id }, mem := mem' }) :
    WP ((cx env fuel d).call "chillbuff_free" [.ptr (some (b, 0))]) s st Q := by
  obtain ⟨ho, hne, hcl, ⟨g, hstruct⟩, rest, harr⟩ := hb
  rw [cx_lib _ _ _ rfl]
  show WP (xBufFree (lctx env) (.ptr (some (b, 0)))) s st Q
  have e1 : readCells (lctx env) (.ptr (some (b, 0))) 5 s st =
      .ok ([.ptr (some (.heap id, 0)), .int len, .int cap, .int es, g], st) :=
    readCells_cont (c := lctx env) (o := 0) ((cont_own ho).trans hstruct) (by simp)
  unfold xBufFree
  rw [wp_bind, wp_of_eq e1]
  simp only [List.headD_cons]
  rw [wp_bind]
  unfold xFree
  refine ⟨_, _, if_pos ⟨hl, rfl⟩, ?_⟩
  simp only
  rw [wp_bind]
  refine wp_writeCells_own (l := [.ptr (some (.heap id, 0)), .int len, .int cap, .int es, g]) ho ?_ rfl ?_
  · show upd _ _ _ b = _
    rw [upd_ne _ _ hne]
    exact hstruct
  rw [wp_pure]
  refine hq _ _ ⟨_, upd_same _ _ _⟩ ?_ ?_
  · rw [upd_ne _ _ (Ne.symm hne)]
    exact upd_same _ _ _
  · intro x hx hi
    simp only [upd]
    rw [if_neg hx, if_neg hi]

end L8w8jwt.C
