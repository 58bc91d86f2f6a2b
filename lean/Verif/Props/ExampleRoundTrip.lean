import Verif.Props.ExampleTokens
/-!
# C86: what examples/*/encode.c prints is accepted by examples/*/decode.c
-/

namespace L8w8jwt.C

open Spec

variable {env : Env} {fuel : Nat} {s : Sched} {alg : Int} {key : Bytes} {name n : String} {sch : Scheme}

/-- Signatures are not empty, if signing does not fail. -/
theorem signed_ne {p : EncParams} {msg sig : Bytes} (hc : CryptoOk env.crypto) (ha : alg? p.alg = some (n, sch)) (hf : ∀ rc, ¬ SignFails env p msg rc)
    (hs : Signed env p msg sig) : sig ≠ [] := by
  have hseed : env.crypto.seedOk = true := by
    cases hx : env.crypto.seedOk with
    | true => rfl
    | false => exact absurd (.seed hx) (hf _)
  intro h0
  subst h0
  unfold Signed Signs at hs
  rw [ha] at hs
  cases sch with
  | hmac md => have := hc.hmac _ _ _ _ hs; cases md <;> cases this
  | rsa md =>
    obtain ⟨pk, hash, -, -, h⟩ := hs
    exact hc.sign _ _ _ _ h rfl
  | pss md =>
    obtain ⟨pk, hash, full, h1, h2, h3, h4⟩ := hs
    have hq : ∀ rc, ¬ PemFails env.crypto (.pss md) (pemKey (keyBytes p)) (password p) msg rc := fun rc hx => hf _ (.pem hseed ha rfl hx)
    have k1 : env.crypto.canPss pk = true := Classical.byContradiction fun hx => hq _ (.kind h1 hx)
    have k2 : 2048 ≤ env.crypto.bitlen pk := Classical.byContradiction fun hx => hq _ (.weak h1 k1 hx (fun _ _ _ _ hy => by cases hy))
    have k3 := hc.pss _ _ _ _ h3
    have k4 := (hc.rsaLen _ (hc.canPss _ k1)).1
    have k5 := congrArg List.length h4
    rw [List.length_take, List.length_nil] at k5
    omega
  | ecdsa md cv k b =>
    obtain ⟨pk, hash, r, t, -, -, -, -, -, h⟩ := hs
    have hk : ∀ a ∈ algs, ∀ md cv k b, a.2 = .ecdsa md cv k b → 0 < k := by
      intro a h
      simp only [algs, List.mem_cons, List.not_mem_nil, or_false] at h
      rcases h with rfl | rfl | rfl | rfl | rfl | rfl | rfl | rfl | rfl | rfl | rfl | rfl | rfl | rfl <;> (intro md cv k b h; cases h; try decide)
    have hm : (n, Scheme.ecdsa md cv k b) ∈ algs := by
      unfold alg? at ha
      split at ha
      · cases ha
      · exact List.mem_of_getElem? ha
    have := hk _ hm _ _ _ _ rfl
    have h := congrArg List.length h
    simp only [List.length_append, be_length, List.length_nil] at h
    omega
  | eddsa =>
    have h := congrArg List.length hs
    rw [hc.ed] at h
    cases h

/-- What is signed is a signature of the standard, but for RSA-PSS with odd key lengths. -/
theorem signed_signs {p : EncParams} {msg sig : Bytes} (hc : CryptoOk env.crypto) (ha : alg? p.alg = some (n, sch)) (hf : ∀ rc, ¬ SignFails env p msg rc)
    (ho : ¬ OddPss env p) (hs : Signed env p msg sig) : Signs env p msg sig := by
  have hseed : env.crypto.seedOk = true := by
    cases hx : env.crypto.seedOk with
    | true => rfl
    | false => exact absurd (.seed hx) (hf _)
  unfold Signed at hs
  cases sch with
  | pss md =>
    unfold Signs
    rw [ha] at hs ⊢
    obtain ⟨pk, hash, full, h1, h2, h3, rfl⟩ := hs
    refine ⟨pk, hash, h1, h2, ?_⟩
    have hq : ∀ rc, ¬ PemFails env.crypto (.pss md) (pemKey (keyBytes p)) (password p) msg rc := fun rc hx => hf _ (.pem hseed ha rfl hx)
    have k1 : env.crypto.canPss pk = true := Classical.byContradiction fun hx => hq _ (.kind h1 hx)
    have k3 := hc.pss _ _ _ _ h3
    have k4 := (hc.rsaLen _ (hc.canPss _ k1)).1
    have h8 : env.crypto.bitlen pk % 8 = 0 := Classical.byContradiction fun h8 => ho ⟨n, md, pk, ha, h1, h8⟩
    rw [h3, List.take_of_length_le (by omega)]
  | hmac md => rw [ha] at hs; exact hs
  | rsa md => rw [ha] at hs; exact hs
  | ecdsa md cv k b => rw [ha] at hs; exact hs
  | eddsa => rw [ha] at hs; exact hs

/-- A signature made with a matching key is as long as the decoder wants it. -/
theorem signs_fits {e : EncParams} {p : DecParams} {msg sig : Bytes} (hc : CryptoOk env.crypto) (hs : Signs env e msg sig) (hm : Matching env e (verKey p))
    (ha : p.alg = e.alg) : SigFits env p sig := by
  obtain ⟨-, hm⟩ := hm
  unfold Signs at hs
  refine ⟨?_, ?_, ?_, ?_⟩
  · intro name md hal
    rw [ha] at hal
    simp only [hal] at hs
    have := hc.hmac _ _ _ _ hs
    omega
  · intro name md pk hal hpk
    rw [ha] at hal
    simp only [hal] at hs hm
    obtain ⟨sk, hash, h1, h2, h3⟩ := hs
    obtain ⟨pk', h4, h5, h6, -⟩ := hm sk h1
    cases publicKey_unique hpk h4
    have := hc.pss _ _ _ _ h3
    exact ⟨h5, by omega⟩
  · intro name md cv n b pk hal hpk
    rw [ha] at hal
    simp only [hal] at hs hm
    obtain ⟨sk, hash, r, s, h1, -⟩ := hs
    obtain ⟨pk', h4, h5, -⟩ := hm sk h1
    cases publicKey_unique hpk h4
    exact h5
  · intro name hal _
    rw [ha] at hal
    simp only [hal] at hs
    have := hc.ed msg (laxHex env.charSigned ((keyBytes e).take 128) ++ [0])
    rw [← hs] at this
    omega

/-- **C86** What a program examples/*/encode.c prints as the token, if its key can sign: the text of examples/*/decode.c with this token, the
same algorithm and a matching key prints, at any time and unless an allocation fails, the code 0 and the flags of the times alone. -/
theorem C86_programs_partial (E : ExEnv env fuel) (gd : s.good) (hn : NumsOk env.checknum) {f : CFun} (hx : (f, alg, name, key) ∈ encodeExamples)
    (ha : alg? alg = some (n, sch)) (hf : ∀ rc, ¬ SignFails env (exRequest alg key env.now) (signingInput (exHeader n) (exPayload env.now)) rc)
    (ho : ¬ OddPss env (exRequest alg key env.now)) :
    ∃ tok st1, runMain env fuel f s = .ok (.int 0, st1) ∧ st1.printed = some (encMessage name tok) ∧ st1.heap.live = [] ∧
      (∃ sig, Signed env (exRequest alg key env.now) (signingInput (exHeader n) (exPayload env.now)) sig ∧ IsToken tok (exHeader n) (exPayload env.now) sig) ∧
      ∀ (now : Int) (key' : Bytes) (name' : String) (typ : Bool) (fuel' : Nat) (s' : Sched), ExDecEnv { env with now := now } alg → ExDecArgs fuel' alg key' tok →
        NameOk name' → Matching env (exRequest alg key env.now) key' → s'.noAllocFail →
        ∃ st2, runMain { env with now := now } fuel' (decodeMain alg key' tok (decFormat name') false typ) s' = .ok (.int 0, st2) ∧
          st2.printed = some (decMessage name' 0 (exFlags now env.now false)) ∧ st2.heap.live = [] := by
  obtain ⟨n', sch', ha', ⟨sig, tok, st1, h1, h2, h3, h4, h5⟩ | ⟨⟨rc, h⟩, -⟩⟩ := C84_encode_partial (s := s) E gd hx
  · rw [ha] at ha'
    cases ha'
    refine ⟨tok, st1, h3, h4, h5, ⟨sig, h1, h2⟩, fun now key' name' typ fuel' s' E' A hname hm g' => ?_⟩
    have hne := signed_ne (p := exRequest alg key env.now) E.crypto ha hf h1
    have hs := signed_signs (p := exRequest alg key env.now) E.crypto ha hf ho h1
    have hver := signs_verifies (e := exRequest alg key env.now) E.crypto hs hne hm
    have hd := b64Decode_b64 hne
    have tk : ExToken tok n env.now (b64 true sig) :=
      ⟨⟨alg, sch, ha⟩, E.time, by rw [h2]; simp only [List.append_assoc]; rfl, by rw [hd]; simp⟩
    obtain ⟨rc, v, st2, e, p, l, hv | ⟨h, -⟩⟩ := C85_token (env := { env with now := now }) (s := s') (nbf := false) (typ := typ) E' (Or.inr g') A hname rfl hn tk ha
      (fun d hd' => by
        rw [hd] at hd'
        cases hd'
        obtain ⟨f1, f2, f3, f4⟩ := signs_fits (p := exDecRequest alg key' tok false typ) E.crypto hs (by rw [exDec_verKey]; exact hm) rfl
        exact ⟨f1, f2, f3, f4⟩)
    · have hver' : Verifies { env with now := now } alg key' (signingInput (exHeader n) (exPayload env.now)) (b64 true sig) := hver
      cases hv with
      | unchecked h => exact absurd hver' (verFails_not h)
      | right => exact ⟨st2, e, p, l⟩
      | wrong _ h => exact absurd hver' h
    · exact absurd g' h
  · rw [ha] at *
    cases ha'
    exact absurd h (hf rc)

/-- In the ten minutes for which the token is meant to be valid, and for a minute before and after, no flag is set. -/
theorem exFlags_zero {now t : Int} (h1 : t - 60 ≤ now) (h2 : now ≤ t + 660) : exFlags now t false = 0#32 := by
  unfold exFlags
  rw [if_neg (by omega), if_neg (by decide), if_neg (by omega)]
  rfl

/-- Outside of it, one is. -/
theorem exFlags_ne {now t : Int} (h : now < t - 60 ∨ t + 660 < now) : exFlags now t false ≠ 0#32 := by
  unfold exFlags
  rcases h with h | h
  · rw [if_neg (by omega), if_neg (by decide), if_pos (by omega)]
    decide
  · rw [if_pos (by omega), if_neg (by decide), if_neg (by omega)]
    decide

/-- The two texts of hs256 in turn, the second one with the algorithm put right: it prints 0 ten minutes later, and 16 after that. -/
example : ∃ tok st1, runMain toy 20000 Ex.hs256_encode calm = .ok (.int 0, st1) ∧ st1.printed = some (encMessage "hs256" tok) ∧
    ∀ x ∈ [((1600 : Int), "0"), (2000, "16")],
      ∃ st2, runMain { toy with now := x.1 } 20000 (decodeMain 0 (str "test key") tok (decFormat "hs256") false false) calm = .ok (.int 0, st2) ∧
        st2.printed = some (str "\nl8w8jwt_decode_hs256 function returned successfully (code 0).\n\nValidation result: \n" ++ str x.2 ++ str "\n") := by
  obtain ⟨tok, st1, h1, h2, -, ⟨sig, h3, h4⟩, h5⟩ := C86_programs_partial (env := toy) (fuel := 20000) (s := calm) (f := Ex.hs256_encode) (alg := 0)
    (name := "hs256") (key := str "test key") (n := "HS256") ⟨toyOk, by decide, by decide⟩ ⟨fun _ => rfl, fun _ => rfl⟩ numsOk_toy List.mem_cons_self rfl
    (fun rc h => by
      cases h with
      | seed h => cases h
      | hmac _ _ h => cases h
      | pem _ h h' => cases h; cases h'
      | edOff _ h => cases h
      | edKey _ h => cases h)
    (fun ⟨_, _, _, h, _⟩ => by cases h)
  refine ⟨tok, st1, h1, h2, fun x hx => ?_⟩
  have hw : tok.length = 348 ∧ 0 ∉ tok := by
    cases h3
    rw [h4, show toy.now = 1000 from rfl]
    decide +kernel
  obtain ⟨hl, hz⟩ := hw
  have hnow : NowOk x.1 := by
    rcases List.mem_cons.mp hx with rfl | hx
    · unfold NowOk; omega
    · cases List.mem_singleton.mp hx
      unfold NowOk; omega
  obtain ⟨st2, e, p, -⟩ := h5 x.1 (str "test key") "hs256" false 20000 calm (exDecEnv_toy _ hnow)
    ⟨by omega, by decide, by decide, ⟨hz, by omega, by omega⟩⟩ (by unfold NameOk; decide +kernel) ⟨plain_no_cert (by decide), (by decide : hmacKey (str "test key") = hmacKey (str "test key" ++ [0]))⟩ (fun _ => rfl)
  refine ⟨st2, e, p.trans ?_⟩
  rcases List.mem_cons.mp hx with rfl | hx
  · decide +kernel
  · cases List.mem_singleton.mp hx
    decide +kernel

end L8w8jwt.C
