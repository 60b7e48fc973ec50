import Verif.Spec.Records
import Verif.Spec.Asf

/-!
# What is said about the encryption of a workbook, independently of the model

Taken from MS-XLS 2.4.117 and MS-OFFCRYPTO 2.3.5.1, 2.3.2 and 2.3.3.
-/

namespace Fileid.Spec.Biff

open Asf (hexText)

/-- The encryption method of the CryptoAPI. The name of the provider is of ASCII characters. -/
structure CryptoApi where
  major : Nat
  cryptoApi : Bool
  docProps : Bool
  external : Bool
  aes : Bool
  unused : Nat
  algId : Nat
  algIdHash : Nat
  keySize : Nat
  provider : Nat
  reserved1 : Nat
  reserved2 : Nat
  csp : Bytes
  salt : Bytes
  verifier : Bytes
  hash : Bytes
  deriving DecidableEq, Repr

def CryptoApi.flags (a : CryptoApi) : List (Nat × Nat) :=
  [(1, 0), (1, 0), flag a.cryptoApi, flag a.docProps, flag a.external, flag a.aes, (26, a.unused)]

/-- `EncryptionHeader`, without the name of the provider. -/
def CryptoApi.header (a : CryptoApi) : Bytes :=
  leBytes 4 (packed a.flags) ++ leBytes 4 0 ++ leBytes 4 a.algId ++ leBytes 4 a.algIdHash ++ leBytes 4 a.keySize ++
  leBytes 4 a.provider ++ leBytes 4 a.reserved1 ++ leBytes 4 a.reserved2

/-- The name of the provider, in UTF-16 with a terminating zero. -/
def CryptoApi.name (a : CryptoApi) : Bytes := a.csp.flatMap (fun c => [c, 0]) ++ [0, 0]

/-- The data of the record: method, version, flags, size of the header, header, and `EncryptionVerifier`. -/
def CryptoApi.data (a : CryptoApi) : Bytes :=
  leBytes 2 1 ++ leBytes 2 a.major ++ leBytes 2 2 ++ leBytes 4 (packed a.flags) ++ leBytes 4 (32 + a.name.length) ++
  a.header ++ a.name ++ (leBytes 4 16 ++ a.salt ++ a.verifier ++ leBytes 4 20) ++ a.hash

def CryptoApi.Valid (a : CryptoApi) : Prop :=
  (a.major = 2 ∨ a.major = 3 ∨ a.major = 4) ∧ a.unused < 2 ^ 26 ∧ a.algId < 2 ^ 32 ∧ a.algIdHash < 2 ^ 32 ∧
  a.keySize < 2 ^ 32 ∧ a.provider < 2 ^ 32 ∧ a.reserved1 < 2 ^ 32 ∧ a.reserved2 < 2 ^ 32 ∧
  (∀ c ∈ a.csp, 0 < c.toNat ∧ c.toNat < 128) ∧ a.salt.length = 16 ∧ a.verifier.length = 16 ∧ a.hash.length = 20 ∧
  a.data.length < 2 ^ 16

/-- What a `FilePass` record says about the encryption of a workbook: obfuscation with a key and its verification
value, the RC4 method with its salt and verifiers, or the method of the CryptoAPI. -/
inductive Pass
  | xor (key verification : Nat)
  | rc4 (salt verifier verifierHash : Bytes)
  | api (a : CryptoApi)
  deriving DecidableEq, Repr

def Pass.Valid : Pass → Prop
  | .xor k v => k < 2 ^ 16 ∧ v < 2 ^ 16
  | .rc4 s v h => s.length = 16 ∧ v.length = 16 ∧ h.length = 16
  | .api a => a.Valid

def Pass.record : Pass → Record
  | .xor k v => ⟨filePassType, leBytes 2 0 ++ leBytes 2 k ++ leBytes 2 v⟩
  | .rc4 s v h => ⟨filePassType, leBytes 2 1 ++ leBytes 2 1 ++ leBytes 2 1 ++ s ++ v ++ h⟩
  | .api a => ⟨filePassType, a.data⟩

/-! ## How it is to be shown -/

/-- Facts as members of a JSON object, and as elements of an XML document. -/
def factsJ (l : List (Bytes × Fact)) : List (Bytes × JVal) := l.map fun p => (p.1, p.2.json)
def factsX (l : List (Bytes × Fact)) : List XVal := l.map fun p => p.2.xml p.1

def CryptoApi.flagFacts (a : CryptoApi) : List (Bytes × Fact) := [
  (b!"Reserved1", .num 0), (b!"Reserved2", .num 0), (b!"fCryptoAPI", .num a.cryptoApi.toNat),
  (b!"fDocProps", .num a.docProps.toNat), (b!"fExternal", .num a.external.toNat), (b!"fAES", .num a.aes.toNat),
  (b!"Unused", .num a.unused)]

def CryptoApi.headerFacts (a : CryptoApi) : List (Bytes × Fact) := [
  (b!"SizeExtra", .num 0), (b!"AlgID", .num a.algId), (b!"AlgIDHash", .num a.algIdHash), (b!"KeySize", .num a.keySize),
  (b!"ProviderType", .num a.provider), (b!"Reserved1", .num a.reserved1), (b!"Reserved2", .num a.reserved2)]

/-- Salt and verifier are shown in hexadecimal. -/
def CryptoApi.verifierFacts (a : CryptoApi) : List (Bytes × Fact) := [
  (b!"SaltSize", .num 16), (b!"Salt", .text (hexText a.salt)), (b!"EncryptedVerifier", .text (hexText a.verifier)),
  (b!"VerifierHashSize", .num 20)]

/-- What is to be said about the encryption in a JSON report. -/
def Pass.members : Pass → List (Bytes × JVal)
  | .xor k v => factsJ [(b!"EncryptionType", .text b!"XOR"), (b!"XorKey", .num k), (b!"XorVerification", .num v)]
  | .rc4 s v h => [(b!"EncryptionType", .text b!"RC4"), (b!"RC4Version", .obj (factsJ [(b!"Major", .num 1), (b!"Minor", .num 1)]))] ++
      factsJ [(b!"Salt", .text (hexText s)), (b!"EncryptedVerifier", .text (hexText v)), (b!"EncryptedVerifierHash", .text (hexText h))]
  | .api a => [(b!"EncryptionType", .text b!"RC4"), (b!"RC4Version", .obj (factsJ [(b!"Major", .num a.major), (b!"Minor", .num 2)])),
      (b!"Flags", .obj (factsJ a.flagFacts)),
      (b!"EncryptionHeader", .obj ((b!"Flags", .obj (factsJ a.flagFacts)) :: factsJ a.headerFacts)),
      (b!"CSPName", .text a.csp), (b!"EncryptionVerifierHeader", .obj (factsJ a.verifierFacts)),
      (b!"EncryptedVerifierHash", .text (hexText a.hash))]

/-- The same in an XML report. -/
def Pass.elements : Pass → List XVal
  | .xor k v => factsX [(b!"EncryptionType", .text b!"XOR"), (b!"XorKey", .num k), (b!"XorVerification", .num v)]
  | .rc4 s v h => [.leaf b!"EncryptionType" b!"RC4", .elem b!"RC4Version" (factsX [(b!"Major", .num 1), (b!"Minor", .num 1)])] ++
      factsX [(b!"Salt", .text (hexText s)), (b!"EncryptedVerifier", .text (hexText v)), (b!"EncryptedVerifierHash", .text (hexText h))]
  | .api a => [.leaf b!"EncryptionType" b!"RC4", .elem b!"RC4Version" (factsX [(b!"Major", .num a.major), (b!"Minor", .num 2)]),
      .elem b!"Flags" (factsX a.flagFacts),
      .elem b!"EncryptionHeader" (.elem b!"Flags" (factsX a.flagFacts) :: factsX a.headerFacts),
      .leaf b!"CSPName" a.csp, .elem b!"EncryptionVerifierHeader" (factsX a.verifierFacts),
      .leaf b!"EncryptedVerifierHash" (hexText a.hash)]

def Pass.json (p : Pass) : JVal :=
  .obj ([(b!"Type", .text b!"FilePass"), (b!"Length", .nat p.record.data.length)] ++ p.members)

def Pass.xml (p : Pass) : XVal :=
  .elem b!"Record" ([.leaf b!"Type" b!"FilePass", .leaf b!"Length" (dec p.record.data.length)] ++ p.elements)

end Fileid.Spec.Biff
