import Verif.Model.DomainKdf
import Verif.Model.DatabaseKdf

/-
`aiootp/generics/domains.py`: domain constants, and the calls of the package that make them.
-/

namespace Aiootp.Domains

open Kdf Canon
open Database (utf8)

/-- A `constant`: `str` or `bytes`. -/
inductive Constant where
  | str (s : String)
  | bytes (b : Bytes)

/-- domains.py:102-103 (65-66 in `aencode_constant`). Lean strings have no lone surrogates; Python raises for these. -/
def Constant.encode : Constant → Bytes
  | .str s => utf8 s
  | .bytes b => b

/-- domains.py:38 `_DOMAIN`. -/
def encoderDomain : Bytes := utf8 "domain_constant_encoder"

/-- What one call of `encode_constant` is given. -/
structure Call where
  constant : Bytes
  size : Nat
  domain : Bytes
  aad : Bytes
  pad : Bytes
  deriving DecidableEq

/-- domains.py:104-112 with hashing.py:78-87: the bytes that `shake_128`, with blocks of 168 bytes, absorbs. -/
def Call.message (c : Call) : Except Err Bytes :=
  hashBytesInput [encoderDomain, c.domain, c.aad, c.constant] 168 0 c.pad (some c.size) none

/-- domains.py:77-112 `encode_constant` (40-75 `aencode_constant`). The defaults are a `size` of 8, no `domain`, no `aad` and zero bytes as
`pad`. `shake` is `shake_128`. The method `digest` of an XOF raises `TypeError` if it gets no size (hashing.py:89-91). -/
def encodeConstant (shake : Bytes → Nat → Bytes) (constant : Constant) (size : Nat := 8) (domain : Bytes := []) (aad : Bytes := [])
    (pad : Bytes := [0]) : Except Err Bytes := do
  let x ← Call.message ⟨constant.encode, size, domain, aad, pad⟩
  if size = 0 then .error .type else .ok (shake x size)

/-- misc.py:39-249: the names and values of all constants that are strings. Left out: the strings that Python adds to a module (`__name__`,
`__doc__`, ...), which `Domains` encodes too. -/
def names : List (String × String) :=
  [("OMITTED", "<omitted>"), ("ACTIVE", "active_connection"), ("ADDRESS", "address"), ("ADMIN", "admin"),
   ("AAD", "aad"), ("AGE", "age_of_connection"), ("AIOOTP", "aiootp"), ("ASYNC", "asynchronous"),
   ("AUTHENTICATED_ASSOCIATED_DATA", "authenticated_associated_data"), ("AUTHENTICATION", "authentication"),
   ("AUTHENTICATION_KEY", "authentication_key"), ("BIG", "big"), ("BLOCK_ID", "block_id"),
   ("CENTISECONDS", "centiseconds"), ("CHANNEL", "channel"), ("CHANNELS", "channels"), ("CHECKSUM", "checksum"),
   ("CHECKSUMS", "checksums"), ("CHUNKY_2048", "Chunky2048"), ("CIPHERTEXT", "ciphertext"), ("CLIENT", "client"),
   ("CLIENT_ADDRESS", "client_address"), ("CLIENT_ID", "client_id"), ("CLIENT_INDEX", "client_database_index"),
   ("CLIENT_KEY", "client_key"), ("CLIENT_MESSAGE_KEY", "client_message_key"), ("CONFIG", "config"),
   ("CONFIG_ID", "CONFIG_ID"), ("CONFIG_TYPE", "CONFIG_TYPE"), ("CONTROL_BITS", "control_bits"),
   ("CONVERSATION", "conversation"), ("CORES", "cores"), ("CORRUPT", "corrupt"), ("CPU", "cpu"),
   ("CSPRNG", "cryptographically_secure_prng"), ("DATABASE", "database"), ("DAY", "day"), ("DAYS", "days"),
   ("DECISECONDS", "deciseconds"), ("DECRYPT", "decrypt"), ("DECRYPTION", "decryption"),
   ("DH2", "diffie_hellman_2x"), ("DH3", "diffie_hellman_3x"), ("DIFFIE_HELLMAN", "diffie_hellman"),
   ("DIRECTORY", "directory"), ("ECDHE", "elliptic_curve_diffie_hellman"), ("EMAIL_ADDRESS", "email_address"),
   ("ENCRYPT", "encrypt"), ("ENCRYPTION", "encryption"), ("ENCRYPTION_KEY", "encryption_key"),
   ("ENTROPY", "entropy"), ("EPHEMERAL_KEY", "ephemeral_key"), ("EQUALITY", "equality"),
   ("EXTENDED_DH_EXCHANGE", "extended_diffie_hellman_exchange"), ("FAILED", "failed"), ("FILE_KEY", "file_key"),
   ("FILENAME", "filename"), ("FILENAME_TO_INDEX", "filename_to_index"), ("GUEST", "guest"),
   ("GUID_CLOCK_MASK", "guid_clock_mask"), ("GUID_SALT", "guid_salt"), ("HEADER", "header"), ("HMAC", "hmac"),
   ("HOUR", "hour"), ("HOURS", "hours"), ("HTTP", "http"), ("HTTPS", "https"), ("ID", "contact_id"),
   ("IDENTITY_KEY", "identity_key"), ("INACTIVE", "terminated_connection"), ("INNER_HEADER", "inner_header"),
   ("IV", "iv"), ("KEY", "key"), ("KDF", "key_derivation_function"), ("KEEP_ALIVE", "keep_alive"),
   ("KEY_ID", "key_id"), ("KEYSTREAM", "keystream"), ("LISTENING", "listening"), ("LITTLE", "little"),
   ("MAINTAINING", "maintaining"), ("MANIFEST", "manifest"), ("MANUAL", "manual_mode"),
   ("MAX_INACTIVITY", "max_inactivity"), ("MB", "mb"), ("MESSAGE_ID", "message_id"), ("MESSAGE_KEY", "message_key"),
   ("MESSAGE_NUMBER", "message_number"), ("MESSAGE", "message"), ("MESSAGES", "messages"), ("METADATA", "metadata"),
   ("METATAG", "metatag"), ("METATAG_KEY", "metatag_key"), ("MICROSECOND", "microsecond"),
   ("MICROSECONDS", "microseconds"), ("MILLISECOND", "millisecond"), ("MILLISECONDS", "milliseconds"),
   ("MINUTE", "minute"), ("MINUTES", "minutes"), ("MNEMONIC", "mnemonic"), ("MONTH", "month"), ("MONTHS", "months"),
   ("NANOSECOND", "nanosecond"), ("NANOSECONDS", "nanoseconds"), ("NEW_CONTACT", "new_contact"),
   ("OLD_KEY", "last_shared_key"), ("ONION", "onion"), ("PACKAGE_SIGNER", "PackageSigner"),
   ("PASSCRYPT", "passcrypt"), ("PASSPHRASE", "passphrase"), ("PAYLOAD", "payload"), ("PERIOD_KEY", "period_key"),
   ("PERIOD_KEYS", "period_keys"), ("PERMUTATION", "permutation"), ("PERMUTATION_KEY", "permutation_key"),
   ("PHASE", "phase"), ("PHONE_NUMBER", "phone_number"), ("PLAINTEXT", "plaintext"),
   ("PRNG", "pseudo_random_number_generator"), ("PUBLIC_CREDENTIALS", "public_credentials"),
   ("PUBLIC_KEY", "public_key"), ("RACHET", "rachet_shared_key"), ("RECEIVING", "receiving"),
   ("RECEIVING_COUNT", "receiving_count"), ("RECEIVING_KEYS", "receiving_keys"),
   ("RECEIVING_STREAM", "receiving_stream"), ("REGISTRATION", "registration"), ("RETRY", "retry"), ("SALT", "salt"),
   ("SALT_SIZE", "salt_size"), ("SCHEMA", "schema"), ("SCOPE", "scope"), ("SECOND", "second"),
   ("SECONDS", "seconds"), ("SECRET", "secret"), ("SECRET_CREDENTIALS", "secret_credentials"),
   ("SECRET_KEY", "secret_key"), ("SECURE_CHANNEL", "secure_channel"), ("SEED", "seed"), ("SENDER", "sender"),
   ("SENDING", "sending"), ("SENDING_COUNT", "sending_count"), ("SENDING_KEYS", "sending_keys"),
   ("SENDING_STREAM", "sending_stream"), ("SERVER", "server"), ("SERVER_ADDRESS", "server_address"),
   ("SERVER_ID", "server_id"), ("SERVER_INDEX", "server_database_index"), ("SERVER_KEY", "server_key"),
   ("SERVER_MESSAGE_KEY", "server_message_key"), ("SESSION_ID", "session_id"), ("SESSION_KEY", "session_key"),
   ("SESSION_TOKEN", "session_tracking_token"), ("SHARED_KEY", "shared_key"), ("SHARED_KEYS", "shared_keys"),
   ("SHARED_SECRET", "shared_secret"), ("SHARED_SEED", "shared_seed"), ("SHMAC", "shmac"), ("SIGNAL", "signal"),
   ("SIGNALS", "signals"), ("SIGNATURE", "signature"), ("SIGNING_KEY", "signing_key"), ("SIV", "synthetic_iv"),
   ("SIV_KEY", "siv_key"), ("SLICK_256", "Slick256"), ("STATE", "state"), ("STATUS", "status"),
   ("SUCCESS", "success"), ("SYNC", "synchronous"), ("TAG", "tag"), ("TAG_SIZE", "tag_size"),
   ("THREAD_SAFE_ENTROPY", "thread_safe_entropy"), ("TIMEOUT", "timeout"), ("TIMESTAMP", "timestamp"),
   ("TOKEN", "token"), ("TTL", "ttl"), ("UNSENT_MESSAGES", "unsent_messages"), ("URL", "url"), ("USER", "user"),
   ("USERNAME", "username"), ("UUID", "unique_user_id"), ("VERIFICATION", "verification"), ("VERSIONS", "versions"),
   ("YEAR", "year"), ("YEARS", "years")]

/-- The extendable output functions of the package. -/
inductive Xof where
  | shake128 | shake256

/-- `SHAKE_128_BLOCKSIZE`, `SHAKE_256_BLOCKSIZE` (misc.py:58-59). -/
def Xof.blocksize : Xof → Nat
  | .shake128 => 168
  | .shake256 => 136

/-- dbdomains.py:38-50: the constants of databases. -/
inductive DbName where
  | rootKdf | rootFilename | rootSalt | metatag | hmac | gist | tmpPrekey | profileLoginKey | manifest | filename | metatagKey | deviceSalt
  | cipher
  deriving DecidableEq

/-- dbdomains.py:38-50. -/
def DbName.text : DbName → String
  | .rootKdf => "root_kdf"
  | .rootFilename => "root_filename"
  | .rootSalt => "root_salt"
  | .metatag => "metatag"
  | .hmac => "hmac"
  | .gist => "profile_credential_gist"
  | .tmpPrekey => "temporary_profile_prekey"
  | .profileLoginKey => "profile_login_key"
  | .manifest => "manifest"
  | .filename => "filename"
  | .metatagKey => "metatag_key"
  | .deviceSalt => "device_salt"
  | .cipher => "cipher"

/-- The places where the package encodes constants, with what may vary there. -/
inductive Site where
  /-- domains.py:123-125: the attribute of `Domains` with this value in misc.py -/
  | domains (value : String)
  /-- dbdomains.py:32-50 -/
  | database (name : DbName)
  /-- _early_salts.py:37 -/
  | packageSeed
  /-- guid_config.py:30 -/
  | guidSalt
  /-- domain_kdf.py:55-58, a class with this `salt_label` and hash type -/
  | kdf (label : Bytes) (type : Xof)
  /-- session_init.py:53-59 -/
  | passcrypt
  /-- cipher_kdfs.py:92-100, a KDF of this name of a cipher with this configuration -/
  | cipherKdf (name : String) (configId metadata : Bytes) (type : Xof)
  /-- affine_permutation_config.py:121-128 -/
  | multiplier (i prime : Nat) (aad : Bytes) (size : Nat)

/-- The calls at these places. `shake` is `shake_128`; only the call of `passcrypt` needs it, for `Domains.PASSCRYPT`. -/
def Site.call (shake : Bytes → Nat → Bytes) : Site → Except Err Call
  | .domains value => .ok ⟨utf8 value, 8, [], [], [0]⟩
  | .database name => .ok ⟨utf8 name.text, 16, utf8 "database_constants", [], [0]⟩
  | .packageSeed => .ok ⟨utf8 "package_seed", 16, [], [], [0]⟩
  | .guidSalt => .ok ⟨utf8 "default_guid_salt", 16, [], [], [0]⟩
  | .kdf label type => .ok ⟨label, type.blocksize, [], [], [0]⟩
  | .passcrypt => do
    let domain ← encodeConstant shake (.str "passcrypt")
    .ok ⟨utf8 "passcrypt_proof_kdf_salt", 168, domain, [], [0]⟩
  | .cipherKdf name configId metadata type => .ok ⟨utf8 (name ++ "_salt"), 2 * type.blocksize, configId, metadata, [0]⟩
  | .multiplier i prime aad size =>
    .ok ⟨utf8 ("multiplicative_key_" ++ i.repr ++ "_" ++ prime.repr), size, utf8 "affine_permutation_constant", aad, [0]⟩

end Aiootp.Domains
