import Verif.Model.Encode
import Verif.Model.Decode
import Verif.Spec.Encode
import Verif.Spec.Loose
/-!
# Clients of the library

A client calls the functions of the library in any order, with any arguments, and releases what it has been given: blocks with `free`
(or `l8w8jwt_free`), claims with `l8w8jwt_free_claims` and the number of claims that it has been told.
-/

namespace L8w8jwt.Spec

/-- Something that a client has been given and has to release. -/
inductive Thing where
  /-- a token, a text, a segment -/
  | block (b : Block)
  /-- an array of claims, with the number of claims reported -/
  | claims (a : ClaimArr) (n : Nat)

/-- The blocks behind a pointer: one or none. -/
def blockIds : Ptr → List Nat
  | none => []
  | some b => [b.id]

/-- The heap blocks that belong to it. -/
def Thing.blocks : Thing → List Nat
  | .block b => [b.id]
  | .claims a _ => (a.items.flatMap fun c => blockIds c.key ++ blockIds c.value) ++ blockIds a.blk

/-- The allocator, and what the client holds. -/
structure Client where
  heap : Heap
  things : List Thing

/-- The heap blocks that the client has to release. -/
def Client.blocks (c : Client) : List Nat := c.things.flatMap Thing.blocks

/-- What a client does. The boolean arguments: an out pointer is NULL. -/
inductive Call where
  | encode (q : Option EncParams)
  | decode (q : Option DecParams) (valNull claimsNull lengthNull : Bool)
  | decodeRaw (q : Option DecParams) (valNull : Bool) (x : RawArgs)
  | decodeRawNoValidation (q : Option DecParams) (x : RawArgs)
  | base64Encode (url : Bool) (data : Option Bytes) (n : Nat) (outNull lenNull : Bool)
  | base64Decode (url : Bool) (data : Option Bytes) (n : Nat) (outNull lenNull : Bool)
  /-- release the thing with this number, if there is one -/
  | release (i : Nat)

/-- What comes with a pointer that may have been written, and may be NULL. -/
def gotPtr : Option Ptr → List Thing
  | some (some b) => [.block b]
  | _ => []

/-- What comes with a pointer and a length. -/
def gotSeg (o : Option (Ptr × Nat)) : List Thing := gotPtr (o.map Prod.fst)

/-- What comes from `l8w8jwt_decode`. -/
def gotClaims (r : DecOut) : List Thing :=
  match r.claims, r.claimsLength with
  | some a, some n => [.claims a n]
  | _, _ => []

/-- The client goes on with what it got. -/
def Client.get {α : Type} (c : Client) (got : α → List Thing) : Except UB (α × Heap) → Except UB Client
  | .error e => .error e
  | .ok (r, h) => .ok ⟨h, got r ++ c.things⟩

/-- The client goes on without the thing with this number. -/
def Client.drop (c : Client) (i : Nat) : Except UB (Unit × Heap) → Except UB Client
  | .error e => .error e
  | .ok (_, h) => .ok ⟨h, c.things.eraseIdx i⟩

/-- One step of a client. -/
def Call.run (env : Env) (s : Sched) (c : Client) : Call → Except UB Client
  | .encode q => c.get (fun r => gotPtr r.out) (L8w8jwt.encode env q s c.heap)
  | .decode q v a n => c.get gotClaims (L8w8jwt.decode env q v a n s c.heap)
  | .decodeRaw q v x =>
    c.get (fun r => gotSeg r.header ++ (gotSeg r.payload ++ gotSeg r.signature)) (L8w8jwt.decodeRaw env q v x s c.heap)
  | .decodeRawNoValidation q x =>
    c.get (fun r => gotSeg r.header ++ (gotSeg r.payload ++ gotSeg r.signature)) (L8w8jwt.decodeRawNoValidation env q x s c.heap)
  | .base64Encode u d n o l => c.get (fun r => gotPtr r.out) (L8w8jwt.base64Encode u d n o l s c.heap)
  | .base64Decode u d n o l => c.get (fun r => gotPtr r.out) (L8w8jwt.base64Decode u d n o l s c.heap)
  | .release i =>
    match c.things[i]? with
    | none => .ok c
    | some (.block b) => c.drop i (free (some b) s c.heap)
    | some (.claims a n) => c.drop i (freeClaims a n s c.heap)

/-- A sequence of calls; clock, keys and memory contents may differ from call to call. -/
def history (s : Sched) : List (Env × Call) → Client → Except UB Client
  | [], c => .ok c
  | (env, x) :: t, c =>
    match x.run env s c with
    | .error e => .error e
    | .ok c' => history s t c'

/-- The token of a request is a string, and its length is given correctly. -/
def TokenArg (q : Option DecParams) : Prop := ∀ p, q = some p → p.jwt ≠ none → ∃ tok, TokenMem p tok

/-- The tokens of a call are strings. -/
def Call.Tokens : Call → Prop
  | .decode q _ _ _ => TokenArg q
  | .decodeRaw q _ _ => TokenArg q
  | .decodeRawNoValidation q _ => TokenArg q
  | _ => True

/-- The token is none of those for which the decoder loses memory. -/
def TidyToken (env : Env) (s : Sched) (q : Option DecParams) : Prop :=
  ∀ p tok, q = some p → TokenMem p tok → ¬ LeakyToken tok ∧ (s.noGrowFail ∨ FewClaims env tok)

/-- The tokens of a call are none of those for which the decoder loses memory. -/
def Call.Tidy (env : Env) (s : Sched) : Call → Prop
  | .decode q _ _ _ => TidyToken env s q
  | .decodeRaw q _ _ => TidyToken env s q
  | _ => True

/-- The arguments of a call satisfy what the functions require (see C04, C02, C47, C64). -/
def Call.Fine (env : Env) (s : Sched) : Call → Prop
  | .encode q => ∀ p, q = some p → TextsReadable p ∧ KeyReadable p ∧ (env.smallStack = false ∨ s.noAllocFail) ∧ EncDefined env p
  | .decode q _ _ _ => TokenArg q ∧ ∀ p tok, q = some p → TokenMem p tok → Tame env s p tok
  | .decodeRaw q _ _ => TokenArg q ∧ ∀ p tok, q = some p → TokenMem p tok → Tame env s p tok
  | .decodeRawNoValidation q _ => TokenArg q
  | .base64Encode u d n _ _ => ∀ mem, d = some mem → n ≤ mem.length ∧ n < 2 ^ 62 ∧ (u = true → b64Fits n)
  | .base64Decode _ d n _ _ => ∀ mem, d = some mem → n ≤ mem.length
  | .release _ => True

end L8w8jwt.Spec
