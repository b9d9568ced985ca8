import Verif.Model.Text
import Verif.Model.Cipher

/-
`aiootp/ciphers/cipher_interface.py`: tokens and JSON messages, which are encodings of the ciphertexts of `bytes_encrypt`.
-/

namespace Aiootp.Cipher

namespace Cipher

variable {κ : Type} (C : Cipher κ)

/-- aiootp/ciphers/cipher_interface.py:471-491 `make_token`. The test of the type of the data is not modelled. -/
def makeToken (key : Bytes) (d : Draws) (aad data : Bytes) : Except Err Bytes := do
  let ciphertext ← C.bytesEncrypt key d none aad data
  return Text.bytesToUrlsafe ciphertext

/-- aiootp/ciphers/cipher_interface.py:519-543 `read_token` of bytes (a `str` is encoded first). -/
def readToken (key saltDraw : Bytes) (now : Int) (ttl : Option Int) (aad token : Bytes) : Except Err Bytes := do
  let ciphertext ← Text.urlsafeToBytes token
  C.bytesDecrypt key saltDraw now ttl aad ciphertext

/-- aiootp/ciphers/cipher_interface.py:361-402 `json_encrypt`; `dumps` is `json.dumps(data).encode()`. -/
def jsonEncrypt {α : Type} (dumps : α → Except Err Bytes) (key : Bytes) (d : Draws) (salt : Option Bytes) (aad : Bytes) (data : α) :
    Except Err Bytes := do
  let text ← dumps data
  C.bytesEncrypt key d salt aad text

/-- aiootp/ciphers/cipher_interface.py:426-447 `json_decrypt`; `loads` is `json.loads`. -/
def jsonDecrypt {α : Type} (loads : Bytes → Except Err α) (key saltDraw : Bytes) (now : Int) (ttl : Option Int) (aad data : Bytes) :
    Except Err α := do
  let text ← C.bytesDecrypt key saltDraw now ttl aad data
  loads text

end Cipher

end Aiootp.Cipher
