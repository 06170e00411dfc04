import Verif.Lemmas.Attr
import Verif.Model.Spa

/-! The constants of Model/Ctx.lean unfolded by the simp set `consts`. -/

namespace Fwknop
attribute [consts]
  FKO_COMMAND_MSG
  FKO_ACCESS_MSG
  FKO_NAT_ACCESS_MSG
  FKO_CLIENT_TIMEOUT_ACCESS_MSG
  FKO_CLIENT_TIMEOUT_NAT_ACCESS_MSG
  FKO_LOCAL_NAT_ACCESS_MSG
  FKO_CLIENT_TIMEOUT_LOCAL_NAT_ACCESS_MSG
  FKO_LAST_MSG_TYPE
  FKO_DIGEST_MD5
  FKO_DIGEST_SHA1
  FKO_DIGEST_SHA256
  FKO_DIGEST_SHA384
  FKO_DIGEST_SHA512
  FKO_DIGEST_SHA3_256
  FKO_DIGEST_SHA3_512
  FKO_LAST_DIGEST_TYPE
  FKO_ENCRYPTION_UNKNOWN
  FKO_ENCRYPTION_RIJNDAEL
  FKO_ENCRYPTION_GPG
  FKO_LAST_ENCRYPTION_TYPE
  FKO_ENC_MODE_ECB
  FKO_ENC_MODE_CBC
  FKO_ENC_MODE_CFB
  FKO_ENC_MODE_PCBC
  FKO_ENC_MODE_OFB
  FKO_ENC_MODE_CTR
  FKO_ENC_MODE_ASYMMETRIC
  FKO_ENC_MODE_CBC_LEGACY_IV
  FKO_LAST_ENC_MODE
  FKO_HMAC_UNKNOWN
  FKO_LAST_HMAC_MODE
  MIN_SPA_ENCODED_MSG_SIZE
  MAX_SPA_ENCODED_MSG_SIZE
  MAX_SPA_SERVER_AUTH_SIZE
  MAX_SPA_TIMESTAMP_SIZE
  MAX_SPA_VERSION_SIZE
  MAX_SPA_MESSAGE_TYPE_SIZE
  MIN_SPA_FIELDS
  MAX_SPA_FIELDS
  FKO_ENCODE_TMP_BUF_SIZE
  FKO_RAND_VAL_SIZE
  FKO_PROTOCOL_VERSION
  FKO_DATA_MODIFIED
  FKO_SPA_MSG_TYPE_MODIFIED
  FKO_CTX_INITIALIZED
  FKO_DIGEST_TYPE_MODIFIED
  FKO_ENCRYPT_TYPE_MODIFIED
  FKO_ENCRYPT_MODE_MODIFIED
  FKO_HMAC_MODE_MODIFIED
  FKO_SPA_DATA_MODIFIED
end Fwknop
