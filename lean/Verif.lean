import Verif.Model.CLib
import Verif.Model.Heap
import Verif.Model.RetCodes
import Verif.Model.Base64
import Verif.Model.Util
import Verif.Model.Claim
import Verif.Model.Jsmn
import Verif.Model.Env
import Verif.Model.Encode
import Verif.Model.Decode
import Verif.Spec.Sched
import Verif.Proofs.Hoare
import Verif.Spec.Base64
import Verif.Proofs.Base64Enc
import Verif.Proofs.Base64Dec
import Verif.Props.Base64
import Verif.Spec.Util
import Verif.Props.Util
import Verif.Spec.Json
import Verif.Proofs.Json
import Verif.Spec.Claim
import Verif.Proofs.Claim
import Verif.Props.Claim
import Verif.Spec.Codes
import Verif.Spec.Encode
import Verif.Proofs.Encode
import Verif.Proofs.Toy
import Verif.Spec.JsonText
import Verif.Proofs.JsonText
import Verif.Proofs.EncodeMain
import Verif.Props.Encode
import Verif.Props.EncodeMore
import Verif.Props.EncodeOom
import Verif.Spec.Decode
import Verif.Proofs.DecodeSeg
import Verif.Proofs.DecodeVer
import Verif.Proofs.Jsmn
import Verif.Spec.Validate
import Verif.Proofs.ParseClaims
import Verif.Proofs.Validate
import Verif.Proofs.DecodeMain
import Verif.Props.DecodeSig
import Verif.Props.DecodeRaw
import Verif.Props.DecodeSafe
import Verif.Spec.JsonClaims
import Verif.Proofs.JsmnText
import Verif.Proofs.JsmnClaims
import Verif.Proofs.JsmnTok
import Verif.Spec.Time
import Verif.Props.Validate
import Verif.Props.DecodeClaims
import Verif.Spec.EndToEnd
import Verif.Props.EndToEnd
import Verif.Model.Resource
import Verif.Spec.Resource
import Verif.Props.Resource
import Verif.Props.FreeClaims
import Verif.Spec.Loose
import Verif.Proofs.Loose
import Verif.Proofs.LooseClaims
import Verif.Proofs.LooseParse
import Verif.Proofs.LooseMain
import Verif.Proofs.LooseDecode
import Verif.Proofs.LooseJson
import Verif.Props.Loose
import Verif.Spec.Outcome
import Verif.Props.Codes
import Verif.Props.Oom
import Verif.Props.Defined
import Verif.Props.Answer
import Verif.Props.EncodeDefined
import Verif.Props.EncodeAnswer
import Verif.Props.LowMem
import Verif.Props.Client
import Verif.Props.Spelling
import Verif.Props.Size
import Verif.Props.RawFail
import Verif.C.Syntax
import Verif.C.Sem
import Verif.C.Ext
import Verif.C.Parse
import Verif.C.Text
import Verif.C.Unit
import Verif.C.Lemmas
import Verif.C.Link
import Verif.C.UtilProof
import Verif.C.Base64EncProof
import Verif.C.Base64DecProof
import Verif.C.VersionProof
import Verif.C.BufProof
import Verif.C.ClaimProof
import Verif.C.UnescapeProof
import Verif.C.SegmentsProof
import Verif.C.ParseProof
import Verif.C.WriteProof
import Verif.C.ValidateProof
import Verif.C.DecodeHeap
import Verif.C.DecodeParts
import Verif.C.DecodeCore
import Verif.C.DecodeProof
import Verif.C.DecodeRawProof
import Verif.C.Mbed
import Verif.C.EncodeParts
import Verif.C.EncodeHeap
import Verif.C.HeaderInv
import Verif.C.HeaderRules
import Verif.C.HeaderTimes
import Verif.C.HeaderPay
import Verif.C.HeaderProof
import Verif.C.MbedRules
import Verif.C.SignText
import Verif.C.SignProof
import Verif.C.SignWhole
import Verif.C.VerifyText
import Verif.C.VerifyRules
import Verif.C.VerifyProof
import Verif.C.EncodeProof
import Verif.Props.Text
import Verif.Props.TextClaim
import Verif.Props.TextDecode
import Verif.Props.TextEncode
import Verif.Props.TextFaults
import Verif.Props.TextVerify
import Verif.C.ExText
import Verif.C.ExUnit
import Verif.C.ExSem
import Verif.C.ExRun
import Verif.Props.ExampleEncode
import Verif.Props.ExampleDecode
import Verif.Props.ExampleTokens
import Verif.Props.ExampleUnverified
import Verif.Props.ExampleRoundTrip
import Verif.Props.Keygen
import Verif.Props.ExampleRaw
import Verif.Props.DefaultBuild
import Verif.Props.SmallStack
import Verif.Props.TextRefused
import Verif.Check.Sha2
import Verif.Check.Pk
import Verif.Check.Contract
import Verif.Check.Recorded
import Verif.Check.RepoTests
