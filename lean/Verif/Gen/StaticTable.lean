/-! Generated by tools/gen_static.py from lib/nghttp3_qpack.c and lib/includes/nghttp3/nghttp3.h; do not edit. -/
namespace Nghttp3
namespace Qpack

/-- a row of the switch of qpack_lookup_token: name length, index of the character switched on, and per
character the list of (string compared with memeq, number of bytes compared, token returned) -/
structure SwitchRow where
  len : Nat
  idx : Nat
  cases : List (Nat × List (List UInt8 × Nat × Nat))

/-! nghttp3_qpack_token, nghttp3.h:774-1060 (only the ones the code refers to by name) -/
def TOKEN_AUTHORITY : Nat := 0
def TOKEN_METHOD : Nat := 1
def TOKEN_PATH : Nat := 8
def TOKEN_SCHEME : Nat := 9
def TOKEN_STATUS : Nat := 11
def TOKEN_PROTOCOL : Nat := 1007
def TOKEN_AUTHORIZATION : Nat := 45
def TOKEN_COOKIE : Nat := 68
def TOKEN_AGE : Nat := 43
def TOKEN_CONTENT_LENGTH : Nat := 55
def TOKEN_ETAG : Nat := 71
def TOKEN_IF_MODIFIED_SINCE : Nat := 74
def TOKEN_IF_NONE_MATCH : Nat := 75
def TOKEN_LOCATION : Nat := 79
def TOKEN_SET_COOKIE : Nat := 85
def TOKEN_HOST : Nat := 1000
def TOKEN_TE : Nat := 1006
def TOKEN_PRIORITY : Nat := 1008
def TOKEN_CONNECTION : Nat := 1001
def TOKEN_KEEP_ALIVE : Nat := 1002
def TOKEN_PROXY_CONNECTION : Nat := 1003
def TOKEN_TRANSFER_ENCODING : Nat := 1004
def TOKEN_UPGRADE : Nat := 1005

/-- `stable[]`, nghttp3_qpack.c:187-336: (name, value, token) -/
def stable : List (List UInt8 × List UInt8 × Nat) := [
  ([58, 97, 117, 116, 104, 111, 114, 105, 116, 121], [], 0) /- :authority:  -/,
  ([58, 112, 97, 116, 104], [47], 8) /- :path: / -/,
  ([97, 103, 101], [48], 43) /- age: 0 -/,
  ([99, 111, 110, 116, 101, 110, 116, 45, 100, 105, 115, 112, 111, 115, 105, 116, 105, 111, 110], [], 52) /- content-disposition:  -/,
  ([99, 111, 110, 116, 101, 110, 116, 45, 108, 101, 110, 103, 116, 104], [48], 55) /- content-length: 0 -/,
  ([99, 111, 111, 107, 105, 101], [], 68) /- cookie:  -/,
  ([100, 97, 116, 101], [], 69) /- date:  -/,
  ([101, 116, 97, 103], [], 71) /- etag:  -/,
  ([105, 102, 45, 109, 111, 100, 105, 102, 105, 101, 100, 45, 115, 105, 110, 99, 101], [], 74) /- if-modified-since:  -/,
  ([105, 102, 45, 110, 111, 110, 101, 45, 109, 97, 116, 99, 104], [], 75) /- if-none-match:  -/,
  ([108, 97, 115, 116, 45, 109, 111, 100, 105, 102, 105, 101, 100], [], 77) /- last-modified:  -/,
  ([108, 105, 110, 107], [], 78) /- link:  -/,
  ([108, 111, 99, 97, 116, 105, 111, 110], [], 79) /- location:  -/,
  ([114, 101, 102, 101, 114, 101, 114], [], 83) /- referer:  -/,
  ([115, 101, 116, 45, 99, 111, 111, 107, 105, 101], [], 85) /- set-cookie:  -/,
  ([58, 109, 101, 116, 104, 111, 100], [67, 79, 78, 78, 69, 67, 84], 1) /- :method: CONNECT -/,
  ([58, 109, 101, 116, 104, 111, 100], [68, 69, 76, 69, 84, 69], 1) /- :method: DELETE -/,
  ([58, 109, 101, 116, 104, 111, 100], [71, 69, 84], 1) /- :method: GET -/,
  ([58, 109, 101, 116, 104, 111, 100], [72, 69, 65, 68], 1) /- :method: HEAD -/,
  ([58, 109, 101, 116, 104, 111, 100], [79, 80, 84, 73, 79, 78, 83], 1) /- :method: OPTIONS -/,
  ([58, 109, 101, 116, 104, 111, 100], [80, 79, 83, 84], 1) /- :method: POST -/,
  ([58, 109, 101, 116, 104, 111, 100], [80, 85, 84], 1) /- :method: PUT -/,
  ([58, 115, 99, 104, 101, 109, 101], [104, 116, 116, 112], 9) /- :scheme: http -/,
  ([58, 115, 99, 104, 101, 109, 101], [104, 116, 116, 112, 115], 9) /- :scheme: https -/,
  ([58, 115, 116, 97, 116, 117, 115], [49, 48, 51], 11) /- :status: 103 -/,
  ([58, 115, 116, 97, 116, 117, 115], [50, 48, 48], 11) /- :status: 200 -/,
  ([58, 115, 116, 97, 116, 117, 115], [51, 48, 52], 11) /- :status: 304 -/,
  ([58, 115, 116, 97, 116, 117, 115], [52, 48, 52], 11) /- :status: 404 -/,
  ([58, 115, 116, 97, 116, 117, 115], [53, 48, 51], 11) /- :status: 503 -/,
  ([97, 99, 99, 101, 112, 116], [42, 47, 42], 25) /- accept: */* -/,
  ([97, 99, 99, 101, 112, 116], [97, 112, 112, 108, 105, 99, 97, 116, 105, 111, 110, 47, 100, 110, 115, 45, 109, 101, 115, 115, 97, 103, 101], 25) /- accept: application/dns-message -/,
  ([97, 99, 99, 101, 112, 116, 45, 101, 110, 99, 111, 100, 105, 110, 103], [103, 122, 105, 112, 44, 32, 100, 101, 102, 108, 97, 116, 101, 44, 32, 98, 114], 27) /- accept-encoding: gzip, deflate, br -/,
  ([97, 99, 99, 101, 112, 116, 45, 114, 97, 110, 103, 101, 115], [98, 121, 116, 101, 115], 29) /- accept-ranges: bytes -/,
  ([97, 99, 99, 101, 115, 115, 45, 99, 111, 110, 116, 114, 111, 108, 45, 97, 108, 108, 111, 119, 45, 104, 101, 97, 100, 101, 114, 115], [99, 97, 99, 104, 101, 45, 99, 111, 110, 116, 114, 111, 108], 32) /- access-control-allow-headers: cache-control -/,
  ([97, 99, 99, 101, 115, 115, 45, 99, 111, 110, 116, 114, 111, 108, 45, 97, 108, 108, 111, 119, 45, 104, 101, 97, 100, 101, 114, 115], [99, 111, 110, 116, 101, 110, 116, 45, 116, 121, 112, 101], 32) /- access-control-allow-headers: content-type -/,
  ([97, 99, 99, 101, 115, 115, 45, 99, 111, 110, 116, 114, 111, 108, 45, 97, 108, 108, 111, 119, 45, 111, 114, 105, 103, 105, 110], [42], 38) /- access-control-allow-origin: * -/,
  ([99, 97, 99, 104, 101, 45, 99, 111, 110, 116, 114, 111, 108], [109, 97, 120, 45, 97, 103, 101, 61, 48], 46) /- cache-control: max-age=0 -/,
  ([99, 97, 99, 104, 101, 45, 99, 111, 110, 116, 114, 111, 108], [109, 97, 120, 45, 97, 103, 101, 61, 50, 53, 57, 50, 48, 48, 48], 46) /- cache-control: max-age=2592000 -/,
  ([99, 97, 99, 104, 101, 45, 99, 111, 110, 116, 114, 111, 108], [109, 97, 120, 45, 97, 103, 101, 61, 54, 48, 52, 56, 48, 48], 46) /- cache-control: max-age=604800 -/,
  ([99, 97, 99, 104, 101, 45, 99, 111, 110, 116, 114, 111, 108], [110, 111, 45, 99, 97, 99, 104, 101], 46) /- cache-control: no-cache -/,
  ([99, 97, 99, 104, 101, 45, 99, 111, 110, 116, 114, 111, 108], [110, 111, 45, 115, 116, 111, 114, 101], 46) /- cache-control: no-store -/,
  ([99, 97, 99, 104, 101, 45, 99, 111, 110, 116, 114, 111, 108], [112, 117, 98, 108, 105, 99, 44, 32, 109, 97, 120, 45, 97, 103, 101, 61, 51, 49, 53, 51, 54, 48, 48, 48], 46) /- cache-control: public, max-age=31536000 -/,
  ([99, 111, 110, 116, 101, 110, 116, 45, 101, 110, 99, 111, 100, 105, 110, 103], [98, 114], 53) /- content-encoding: br -/,
  ([99, 111, 110, 116, 101, 110, 116, 45, 101, 110, 99, 111, 100, 105, 110, 103], [103, 122, 105, 112], 53) /- content-encoding: gzip -/,
  ([99, 111, 110, 116, 101, 110, 116, 45, 116, 121, 112, 101], [97, 112, 112, 108, 105, 99, 97, 116, 105, 111, 110, 47, 100, 110, 115, 45, 109, 101, 115, 115, 97, 103, 101], 57) /- content-type: application/dns-message -/,
  ([99, 111, 110, 116, 101, 110, 116, 45, 116, 121, 112, 101], [97, 112, 112, 108, 105, 99, 97, 116, 105, 111, 110, 47, 106, 97, 118, 97, 115, 99, 114, 105, 112, 116], 57) /- content-type: application/javascript -/,
  ([99, 111, 110, 116, 101, 110, 116, 45, 116, 121, 112, 101], [97, 112, 112, 108, 105, 99, 97, 116, 105, 111, 110, 47, 106, 115, 111, 110], 57) /- content-type: application/json -/,
  ([99, 111, 110, 116, 101, 110, 116, 45, 116, 121, 112, 101], [97, 112, 112, 108, 105, 99, 97, 116, 105, 111, 110, 47, 120, 45, 119, 119, 119, 45, 102, 111, 114, 109, 45, 117, 114, 108, 101, 110, 99, 111, 100, 101, 100], 57) /- content-type: application/x-www-form-urlencoded -/,
  ([99, 111, 110, 116, 101, 110, 116, 45, 116, 121, 112, 101], [105, 109, 97, 103, 101, 47, 103, 105, 102], 57) /- content-type: image/gif -/,
  ([99, 111, 110, 116, 101, 110, 116, 45, 116, 121, 112, 101], [105, 109, 97, 103, 101, 47, 106, 112, 101, 103], 57) /- content-type: image/jpeg -/,
  ([99, 111, 110, 116, 101, 110, 116, 45, 116, 121, 112, 101], [105, 109, 97, 103, 101, 47, 112, 110, 103], 57) /- content-type: image/png -/,
  ([99, 111, 110, 116, 101, 110, 116, 45, 116, 121, 112, 101], [116, 101, 120, 116, 47, 99, 115, 115], 57) /- content-type: text/css -/,
  ([99, 111, 110, 116, 101, 110, 116, 45, 116, 121, 112, 101], [116, 101, 120, 116, 47, 104, 116, 109, 108, 59, 32, 99, 104, 97, 114, 115, 101, 116, 61, 117, 116, 102, 45, 56], 57) /- content-type: text/html; charset=utf-8 -/,
  ([99, 111, 110, 116, 101, 110, 116, 45, 116, 121, 112, 101], [116, 101, 120, 116, 47, 112, 108, 97, 105, 110], 57) /- content-type: text/plain -/,
  ([99, 111, 110, 116, 101, 110, 116, 45, 116, 121, 112, 101], [116, 101, 120, 116, 47, 112, 108, 97, 105, 110, 59, 99, 104, 97, 114, 115, 101, 116, 61, 117, 116, 102, 45, 56], 57) /- content-type: text/plain;charset=utf-8 -/,
  ([114, 97, 110, 103, 101], [98, 121, 116, 101, 115, 61, 48, 45], 82) /- range: bytes=0- -/,
  ([115, 116, 114, 105, 99, 116, 45, 116, 114, 97, 110, 115, 112, 111, 114, 116, 45, 115, 101, 99, 117, 114, 105, 116, 121], [109, 97, 120, 45, 97, 103, 101, 61, 51, 49, 53, 51, 54, 48, 48, 48], 86) /- strict-transport-security: max-age=31536000 -/,
  ([115, 116, 114, 105, 99, 116, 45, 116, 114, 97, 110, 115, 112, 111, 114, 116, 45, 115, 101, 99, 117, 114, 105, 116, 121], [109, 97, 120, 45, 97, 103, 101, 61, 51, 49, 53, 51, 54, 48, 48, 48, 59, 32, 105, 110, 99, 108, 117, 100, 101, 115, 117, 98, 100, 111, 109, 97, 105, 110, 115], 86) /- strict-transport-security: max-age=31536000; includesubdomains -/,
  ([115, 116, 114, 105, 99, 116, 45, 116, 114, 97, 110, 115, 112, 111, 114, 116, 45, 115, 101, 99, 117, 114, 105, 116, 121], [109, 97, 120, 45, 97, 103, 101, 61, 51, 49, 53, 51, 54, 48, 48, 48, 59, 32, 105, 110, 99, 108, 117, 100, 101, 115, 117, 98, 100, 111, 109, 97, 105, 110, 115, 59, 32, 112, 114, 101, 108, 111, 97, 100], 86) /- strict-transport-security: max-age=31536000; includesubdomains; preload -/,
  ([118, 97, 114, 121], [97, 99, 99, 101, 112, 116, 45, 101, 110, 99, 111, 100, 105, 110, 103], 92) /- vary: accept-encoding -/,
  ([118, 97, 114, 121], [111, 114, 105, 103, 105, 110], 92) /- vary: origin -/,
  ([120, 45, 99, 111, 110, 116, 101, 110, 116, 45, 116, 121, 112, 101, 45, 111, 112, 116, 105, 111, 110, 115], [110, 111, 115, 110, 105, 102, 102], 94) /- x-content-type-options: nosniff -/,
  ([120, 45, 120, 115, 115, 45, 112, 114, 111, 116, 101, 99, 116, 105, 111, 110], [49, 59, 32, 109, 111, 100, 101, 61, 98, 108, 111, 99, 107], 98) /- x-xss-protection: 1; mode=block -/,
  ([58, 115, 116, 97, 116, 117, 115], [49, 48, 48], 11) /- :status: 100 -/,
  ([58, 115, 116, 97, 116, 117, 115], [50, 48, 52], 11) /- :status: 204 -/,
  ([58, 115, 116, 97, 116, 117, 115], [50, 48, 54], 11) /- :status: 206 -/,
  ([58, 115, 116, 97, 116, 117, 115], [51, 48, 50], 11) /- :status: 302 -/,
  ([58, 115, 116, 97, 116, 117, 115], [52, 48, 48], 11) /- :status: 400 -/,
  ([58, 115, 116, 97, 116, 117, 115], [52, 48, 51], 11) /- :status: 403 -/,
  ([58, 115, 116, 97, 116, 117, 115], [52, 50, 49], 11) /- :status: 421 -/,
  ([58, 115, 116, 97, 116, 117, 115], [52, 50, 53], 11) /- :status: 425 -/,
  ([58, 115, 116, 97, 116, 117, 115], [53, 48, 48], 11) /- :status: 500 -/,
  ([97, 99, 99, 101, 112, 116, 45, 108, 97, 110, 103, 117, 97, 103, 101], [], 28) /- accept-language:  -/,
  ([97, 99, 99, 101, 115, 115, 45, 99, 111, 110, 116, 114, 111, 108, 45, 97, 108, 108, 111, 119, 45, 99, 114, 101, 100, 101, 110, 116, 105, 97, 108, 115], [70, 65, 76, 83, 69], 30) /- access-control-allow-credentials: FALSE -/,
  ([97, 99, 99, 101, 115, 115, 45, 99, 111, 110, 116, 114, 111, 108, 45, 97, 108, 108, 111, 119, 45, 99, 114, 101, 100, 101, 110, 116, 105, 97, 108, 115], [84, 82, 85, 69], 30) /- access-control-allow-credentials: TRUE -/,
  ([97, 99, 99, 101, 115, 115, 45, 99, 111, 110, 116, 114, 111, 108, 45, 97, 108, 108, 111, 119, 45, 104, 101, 97, 100, 101, 114, 115], [42], 32) /- access-control-allow-headers: * -/,
  ([97, 99, 99, 101, 115, 115, 45, 99, 111, 110, 116, 114, 111, 108, 45, 97, 108, 108, 111, 119, 45, 109, 101, 116, 104, 111, 100, 115], [103, 101, 116], 35) /- access-control-allow-methods: get -/,
  ([97, 99, 99, 101, 115, 115, 45, 99, 111, 110, 116, 114, 111, 108, 45, 97, 108, 108, 111, 119, 45, 109, 101, 116, 104, 111, 100, 115], [103, 101, 116, 44, 32, 112, 111, 115, 116, 44, 32, 111, 112, 116, 105, 111, 110, 115], 35) /- access-control-allow-methods: get, post, options -/,
  ([97, 99, 99, 101, 115, 115, 45, 99, 111, 110, 116, 114, 111, 108, 45, 97, 108, 108, 111, 119, 45, 109, 101, 116, 104, 111, 100, 115], [111, 112, 116, 105, 111, 110, 115], 35) /- access-control-allow-methods: options -/,
  ([97, 99, 99, 101, 115, 115, 45, 99, 111, 110, 116, 114, 111, 108, 45, 101, 120, 112, 111, 115, 101, 45, 104, 101, 97, 100, 101, 114, 115], [99, 111, 110, 116, 101, 110, 116, 45, 108, 101, 110, 103, 116, 104], 39) /- access-control-expose-headers: content-length -/,
  ([97, 99, 99, 101, 115, 115, 45, 99, 111, 110, 116, 114, 111, 108, 45, 114, 101, 113, 117, 101, 115, 116, 45, 104, 101, 97, 100, 101, 114, 115], [99, 111, 110, 116, 101, 110, 116, 45, 116, 121, 112, 101], 40) /- access-control-request-headers: content-type -/,
  ([97, 99, 99, 101, 115, 115, 45, 99, 111, 110, 116, 114, 111, 108, 45, 114, 101, 113, 117, 101, 115, 116, 45, 109, 101, 116, 104, 111, 100], [103, 101, 116], 41) /- access-control-request-method: get -/,
  ([97, 99, 99, 101, 115, 115, 45, 99, 111, 110, 116, 114, 111, 108, 45, 114, 101, 113, 117, 101, 115, 116, 45, 109, 101, 116, 104, 111, 100], [112, 111, 115, 116], 41) /- access-control-request-method: post -/,
  ([97, 108, 116, 45, 115, 118, 99], [99, 108, 101, 97, 114], 44) /- alt-svc: clear -/,
  ([97, 117, 116, 104, 111, 114, 105, 122, 97, 116, 105, 111, 110], [], 45) /- authorization:  -/,
  ([99, 111, 110, 116, 101, 110, 116, 45, 115, 101, 99, 117, 114, 105, 116, 121, 45, 112, 111, 108, 105, 99, 121], [115, 99, 114, 105, 112, 116, 45, 115, 114, 99, 32, 39, 110, 111, 110, 101, 39, 59, 32, 111, 98, 106, 101, 99, 116, 45, 115, 114, 99, 32, 39, 110, 111, 110, 101, 39, 59, 32, 98, 97, 115, 101, 45, 117, 114, 105, 32, 39, 110, 111, 110, 101, 39], 56) /- content-security-policy: script-src 'none'; object-src 'none'; base-uri 'none' -/,
  ([101, 97, 114, 108, 121, 45, 100, 97, 116, 97], [49], 70) /- early-data: 1 -/,
  ([101, 120, 112, 101, 99, 116, 45, 99, 116], [], 72) /- expect-ct:  -/,
  ([102, 111, 114, 119, 97, 114, 100, 101, 100], [], 73) /- forwarded:  -/,
  ([105, 102, 45, 114, 97, 110, 103, 101], [], 76) /- if-range:  -/,
  ([111, 114, 105, 103, 105, 110], [], 80) /- origin:  -/,
  ([112, 117, 114, 112, 111, 115, 101], [112, 114, 101, 102, 101, 116, 99, 104], 81) /- purpose: prefetch -/,
  ([115, 101, 114, 118, 101, 114], [], 84) /- server:  -/,
  ([116, 105, 109, 105, 110, 103, 45, 97, 108, 108, 111, 119, 45, 111, 114, 105, 103, 105, 110], [42], 89) /- timing-allow-origin: * -/,
  ([117, 112, 103, 114, 97, 100, 101, 45, 105, 110, 115, 101, 99, 117, 114, 101, 45, 114, 101, 113, 117, 101, 115, 116, 115], [49], 90) /- upgrade-insecure-requests: 1 -/,
  ([117, 115, 101, 114, 45, 97, 103, 101, 110, 116], [], 91) /- user-agent:  -/,
  ([120, 45, 102, 111, 114, 119, 97, 114, 100, 101, 100, 45, 102, 111, 114], [], 95) /- x-forwarded-for:  -/,
  ([120, 45, 102, 114, 97, 109, 101, 45, 111, 112, 116, 105, 111, 110, 115], [100, 101, 110, 121], 96) /- x-frame-options: deny -/,
  ([120, 45, 102, 114, 97, 109, 101, 45, 111, 112, 116, 105, 111, 110, 115], [115, 97, 109, 101, 111, 114, 105, 103, 105, 110], 96) /- x-frame-options: sameorigin -/]

/-- `token_stable[]`, nghttp3_qpack.c:52-166: (absidx, token, hash) -/
def tokenStable : List (Nat × Nat × Nat) := [
  (0, 0, 3153725150),
  (15, 1, 695666056),
  (16, 1, 695666056),
  (17, 1, 695666056),
  (18, 1, 695666056),
  (19, 1, 695666056),
  (20, 1, 695666056),
  (21, 1, 695666056),
  (1, 8, 3292848686),
  (22, 9, 2510477674),
  (23, 9, 2510477674),
  (24, 11, 4000288983),
  (25, 11, 4000288983),
  (26, 11, 4000288983),
  (27, 11, 4000288983),
  (28, 11, 4000288983),
  (63, 11, 4000288983),
  (64, 11, 4000288983),
  (65, 11, 4000288983),
  (66, 11, 4000288983),
  (67, 11, 4000288983),
  (68, 11, 4000288983),
  (69, 11, 4000288983),
  (70, 11, 4000288983),
  (71, 11, 4000288983),
  (29, 25, 136609321),
  (30, 25, 136609321),
  (31, 27, 3379649177),
  (72, 28, 1979086614),
  (32, 29, 1713753958),
  (73, 30, 901040780),
  (74, 30, 901040780),
  (33, 32, 1524311232),
  (34, 32, 1524311232),
  (75, 32, 1524311232),
  (76, 35, 2175229868),
  (77, 35, 2175229868),
  (78, 35, 2175229868),
  (35, 38, 2710797292),
  (79, 39, 2449824425),
  (80, 40, 3599549072),
  (81, 41, 2417078055),
  (82, 41, 2417078055),
  (2, 43, 742476188),
  (83, 44, 2148877059),
  (84, 45, 2436257726),
  (36, 46, 1355326669),
  (37, 46, 1355326669),
  (38, 46, 1355326669),
  (39, 46, 1355326669),
  (40, 46, 1355326669),
  (41, 46, 1355326669),
  (3, 52, 3889184348),
  (42, 53, 65203592),
  (43, 53, 65203592),
  (4, 55, 1308181789),
  (85, 56, 1569039836),
  (44, 57, 4244048277),
  (45, 57, 4244048277),
  (46, 57, 4244048277),
  (47, 57, 4244048277),
  (48, 57, 4244048277),
  (49, 57, 4244048277),
  (50, 57, 4244048277),
  (51, 57, 4244048277),
  (52, 57, 4244048277),
  (53, 57, 4244048277),
  (54, 57, 4244048277),
  (5, 68, 2007449791),
  (6, 69, 3564297305),
  (86, 70, 4080895051),
  (7, 71, 113792960),
  (87, 72, 1183214960),
  (88, 73, 1485178027),
  (8, 74, 2213050793),
  (9, 75, 2536202615),
  (89, 76, 2340978238),
  (10, 77, 3226950251),
  (11, 78, 232457833),
  (12, 79, 200649126),
  (90, 80, 3649018447),
  (91, 81, 4212263681),
  (55, 82, 4208725202),
  (13, 83, 3969579366),
  (92, 84, 1085029842),
  (14, 85, 1848371000),
  (56, 86, 4138147361),
  (57, 86, 4138147361),
  (58, 86, 4138147361),
  (93, 89, 2432297564),
  (94, 90, 2479169413),
  (95, 91, 606444526),
  (59, 92, 1085005381),
  (60, 92, 1085005381),
  (61, 94, 3644557769),
  (96, 95, 2914187656),
  (97, 96, 3993834824),
  (98, 96, 3993834824),
  (62, 98, 2501058888)]

/-- the switch of qpack_lookup_token, nghttp3_qpack.c:342-735 -/
def lookupSwitch : List SwitchRow := [
  ⟨2, 1, [(101, [([116], 1, 1006)])]⟩,
  ⟨3, 2, [(101, [([97, 103], 2, 43)])]⟩,
  ⟨4, 3, [(101, [([100, 97, 116], 3, 69)]),
    (103, [([101, 116, 97], 3, 71)]),
    (107, [([108, 105, 110], 3, 78)]),
    (116, [([104, 111, 115], 3, 1000)]),
    (121, [([118, 97, 114], 3, 92)])]⟩,
  ⟨5, 4, [(101, [([114, 97, 110, 103], 4, 82)]),
    (104, [([58, 112, 97, 116], 4, 8)])]⟩,
  ⟨6, 5, [(101, [([99, 111, 111, 107, 105], 5, 68)]),
    (110, [([111, 114, 105, 103, 105], 5, 80)]),
    (114, [([115, 101, 114, 118, 101], 5, 84)]),
    (116, [([97, 99, 99, 101, 112], 5, 25)])]⟩,
  ⟨7, 6, [(99, [([97, 108, 116, 45, 115, 118], 6, 44)]),
    (100, [([58, 109, 101, 116, 104, 111], 6, 1)]),
    (101, [([58, 115, 99, 104, 101, 109], 6, 9), ([112, 117, 114, 112, 111, 115], 6, 81), ([117, 112, 103, 114, 97, 100], 6, 1005)]),
    (114, [([114, 101, 102, 101, 114, 101], 6, 83)]),
    (115, [([58, 115, 116, 97, 116, 117], 6, 11)])]⟩,
  ⟨8, 7, [(101, [([105, 102, 45, 114, 97, 110, 103], 7, 76)]),
    (110, [([108, 111, 99, 97, 116, 105, 111], 7, 79)]),
    (121, [([112, 114, 105, 111, 114, 105, 116], 7, 1008)])]⟩,
  ⟨9, 8, [(100, [([102, 111, 114, 119, 97, 114, 100, 101], 8, 73)]),
    (108, [([58, 112, 114, 111, 116, 111, 99, 111], 8, 1007)]),
    (116, [([101, 120, 112, 101, 99, 116, 45, 99], 8, 72)])]⟩,
  ⟨10, 9, [(97, [([101, 97, 114, 108, 121, 45, 100, 97, 116], 9, 70)]),
    (101, [([107, 101, 101, 112, 45, 97, 108, 105, 118], 9, 1002), ([115, 101, 116, 45, 99, 111, 111, 107, 105], 9, 85)]),
    (110, [([99, 111, 110, 110, 101, 99, 116, 105, 111], 9, 1001)]),
    (116, [([117, 115, 101, 114, 45, 97, 103, 101, 110], 9, 91)]),
    (121, [([58, 97, 117, 116, 104, 111, 114, 105, 116], 9, 0)])]⟩,
  ⟨12, 11, [(101, [([99, 111, 110, 116, 101, 110, 116, 45, 116, 121, 112], 11, 57)])]⟩,
  ⟨13, 12, [(100, [([108, 97, 115, 116, 45, 109, 111, 100, 105, 102, 105, 101], 12, 77)]),
    (104, [([105, 102, 45, 110, 111, 110, 101, 45, 109, 97, 116, 99], 12, 75)]),
    (108, [([99, 97, 99, 104, 101, 45, 99, 111, 110, 116, 114, 111], 12, 46)]),
    (110, [([97, 117, 116, 104, 111, 114, 105, 122, 97, 116, 105, 111], 12, 45)]),
    (115, [([97, 99, 99, 101, 112, 116, 45, 114, 97, 110, 103, 101], 12, 29)])]⟩,
  ⟨14, 13, [(104, [([99, 111, 110, 116, 101, 110, 116, 45, 108, 101, 110, 103, 116], 13, 55)])]⟩,
  ⟨15, 14, [(101, [([97, 99, 99, 101, 112, 116, 45, 108, 97, 110, 103, 117, 97, 103], 14, 28)]),
    (103, [([97, 99, 99, 101, 112, 116, 45, 101, 110, 99, 111, 100, 105, 110], 14, 27)]),
    (114, [([120, 45, 102, 111, 114, 119, 97, 114, 100, 101, 100, 45, 102, 111], 14, 95)]),
    (115, [([120, 45, 102, 114, 97, 109, 101, 45, 111, 112, 116, 105, 111, 110], 14, 96)])]⟩,
  ⟨16, 15, [(103, [([99, 111, 110, 116, 101, 110, 116, 45, 101, 110, 99, 111, 100, 105, 110], 15, 53)]),
    (110, [([112, 114, 111, 120, 121, 45, 99, 111, 110, 110, 101, 99, 116, 105, 111], 15, 1003), ([120, 45, 120, 115, 115, 45, 112, 114, 111, 116, 101, 99, 116, 105, 111], 15, 98)])]⟩,
  ⟨17, 16, [(101, [([105, 102, 45, 109, 111, 100, 105, 102, 105, 101, 100, 45, 115, 105, 110, 99], 16, 74)]),
    (103, [([116, 114, 97, 110, 115, 102, 101, 114, 45, 101, 110, 99, 111, 100, 105, 110], 16, 1004)])]⟩,
  ⟨19, 18, [(110, [([99, 111, 110, 116, 101, 110, 116, 45, 100, 105, 115, 112, 111, 115, 105, 116, 105, 111], 18, 52), ([116, 105, 109, 105, 110, 103, 45, 97, 108, 108, 111, 119, 45, 111, 114, 105, 103, 105], 18, 89)])]⟩,
  ⟨22, 21, [(115, [([120, 45, 99, 111, 110, 116, 101, 110, 116, 45, 116, 121, 112, 101, 45, 111, 112, 116, 105, 111, 110], 21, 94)])]⟩,
  ⟨23, 22, [(121, [([99, 111, 110, 116, 101, 110, 116, 45, 115, 101, 99, 117, 114, 105, 116, 121, 45, 112, 111, 108, 105, 99], 22, 56)])]⟩,
  ⟨25, 24, [(115, [([117, 112, 103, 114, 97, 100, 101, 45, 105, 110, 115, 101, 99, 117, 114, 101, 45, 114, 101, 113, 117, 101, 115, 116], 24, 90)]),
    (121, [([115, 116, 114, 105, 99, 116, 45, 116, 114, 97, 110, 115, 112, 111, 114, 116, 45, 115, 101, 99, 117, 114, 105, 116], 24, 86)])]⟩,
  ⟨27, 26, [(110, [([97, 99, 99, 101, 115, 115, 45, 99, 111, 110, 116, 114, 111, 108, 45, 97, 108, 108, 111, 119, 45, 111, 114, 105, 103, 105], 26, 38)])]⟩,
  ⟨28, 27, [(115, [([97, 99, 99, 101, 115, 115, 45, 99, 111, 110, 116, 114, 111, 108, 45, 97, 108, 108, 111, 119, 45, 104, 101, 97, 100, 101, 114], 27, 32), ([97, 99, 99, 101, 115, 115, 45, 99, 111, 110, 116, 114, 111, 108, 45, 97, 108, 108, 111, 119, 45, 109, 101, 116, 104, 111, 100], 27, 35)])]⟩,
  ⟨29, 28, [(100, [([97, 99, 99, 101, 115, 115, 45, 99, 111, 110, 116, 114, 111, 108, 45, 114, 101, 113, 117, 101, 115, 116, 45, 109, 101, 116, 104, 111], 28, 41)]),
    (115, [([97, 99, 99, 101, 115, 115, 45, 99, 111, 110, 116, 114, 111, 108, 45, 101, 120, 112, 111, 115, 101, 45, 104, 101, 97, 100, 101, 114], 28, 39)])]⟩,
  ⟨30, 29, [(115, [([97, 99, 99, 101, 115, 115, 45, 99, 111, 110, 116, 114, 111, 108, 45, 114, 101, 113, 117, 101, 115, 116, 45, 104, 101, 97, 100, 101, 114], 29, 40)])]⟩,
  ⟨32, 31, [(115, [([97, 99, 99, 101, 115, 115, 45, 99, 111, 110, 116, 114, 111, 108, 45, 97, 108, 108, 111, 119, 45, 99, 114, 101, 100, 101, 110, 116, 105, 97, 108], 31, 30)])]⟩]

end Qpack
end Nghttp3
