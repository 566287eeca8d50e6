{
 "C04": {
  "note": "For every digest function and both overflow-check modes."
 },
 "C06": {
  "status": "partial",
  "note": "The full claim is false of the code: marshal_binary truncates the size to 16 bits, so attributes of 64 KiB or more are sent with a wrong length field (C06_counterexample). Proved for attributes below 65516 bytes, and modulo 65536 for all packets."
 },
 "C08": {
  "note": "The 65516 bound for builds with overflow checks is sharp (C08_panic_witness)."
 },
 "C14": {
  "note": "Explicit reduction to a collision of the digest, requests and responses."
 },
 "C30": {
  "status": "partial",
  "note": "The full claim is false of the code: lookup_tunnel_password on a decoded response uses the response authenticator, the server hid the password with the request authenticator (C30_counterexample, a concrete MD5 run). Proved: the attribute survives transport and reads correctly with the request authenticator."
 },
 "C33": {
  "note": "The size hypothesis of C33_over_the_wire excludes the packets of 64 KiB of C06; C33_wire has no size hypothesis."
 },
 "C40": {
  "status": "partial",
  "note": "The full claim is false of the code: a panicking handler never releases its key (C40_panic_blocks_key: every later request with that key is dropped forever). Proved for handlers that return Ok or Err."
 },
 "C46": {
  "status": "partial",
  "note": "The full claim is false of the code: send_packet never calls is_authentic_response nor compares identifiers (C46_counterexample: for every digest and request, a forged datagram is returned). Proved: what is returned is exactly the content of the one datagram received."
 },
 "C52": {
  "status": "partial",
  "note": "The full claim is false for passwords with a zero byte (C52_counterexample_zero: accepted) or not UTF-8 (C52_counterexample_utf8: handler panics). Proved for all other passwords, in every execution of the server."
 }
}