import Verif.Types
/-
# The networks' EIP-712 domains, `crates/network/utils/src/domain.rs`
-/

namespace Verif.Domain

/-- A text as UTF-8 bytes; only used on ASCII texts. -/
def ascii (s : List Char) : Bytes := s.map fun c => UInt8.ofNat c.toNat

/-- `Eip712Domain::encode_type` for a domain with name, version and chain id. -/
def domainType : Bytes := ascii "EIP712Domain(string name,string version,uint256 chainId)".toList

/-- The bytes that `Eip712Domain::separator` hashes: the type hash and the encoded data, one word each. -/
def preimage (kc : Bytes → B256) (name version : Bytes) (chainId : Nat) : Bytes :=
  B256.bytes (kc domainType) ++ B256.bytes (kc name) ++ B256.bytes (kc version) ++ beBytes 32 chainId

/-- `Eip712Domain::separator` for the domains of `eip712_domain!` with a name, a version and a chain id,
`crates/network/utils/src/domain.rs:27-32`. -/
def separator (kc : Bytes → B256) (name version : Bytes) (chainId : Nat) : B256 := kc (preimage kc name version chainId)

/-- The name in both domains, `crates/network/utils/src/domain.rs:28,38`. -/
def protocolName : Bytes := ascii "Succinct Prover Network".toList

/-- The version in both domains, `crates/network/utils/src/domain.rs:29,39`. -/
def protocolVersion : Bytes := ascii "1.0.0".toList

/-- `SPN_SEPOLIA_V1_DOMAIN`, `crates/network/utils/src/domain.rs:26-33`. -/
def sepolia (kc : Bytes → B256) : B256 := separator kc protocolName protocolVersion 11155111

/-- `SPN_MAINNET_V1_DOMAIN`, `crates/network/utils/src/domain.rs:36-43`. -/
def mainnet (kc : Bytes → B256) : B256 := separator kc protocolName protocolVersion 1

/-- `get_domain`, `crates/network/utils/src/domain.rs:17-23`; also `deserialize_domain` (`:8-14`) after the string has
been read. `none` is the error. -/
def getDomain (kc : Bytes → B256) (name : List Char) : Option B256 :=
  if name = "SPN_MAINNET_V1_DOMAIN".toList then some (mainnet kc)
  else if name = "SPN_SEPOLIA_V1_DOMAIN".toList then some (sepolia kc)
  else none

end Verif.Domain
