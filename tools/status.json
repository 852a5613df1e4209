{
 "C17": {
  "note": "The exact value is reached for unit coefficients +-1 or at most 18 decimal places; otherwise the proved bound holds (finding F2)."
 },
 "C23": {
  "note": "For UTF-8 texts, ASCII delimiters and tables whose products are representable; C23_only_multiplication_panics says that without the last assumption nothing else can panic."
 },
 "C27": {
  "note": "C27_multiple assumes that inner delimiters are outer delimiters, or that there are no keywords and numerals; without it the code reuses a stale buffer (C33_counterexample)."
 },
 "C29": {
  "note": "Order independence holds for non-negative durations; C29_order_matters is a proved counterexample otherwise."
 },
 "C31": {
  "note": "C31_sign_lost and C31_small_exponent are proved counterexamples outside of the stated range of exponents."
 },
 "C33": {
  "note": "C33_counterexample proves that the restriction on the delimiters is needed."
 },
 "C43": {
  "note": "The panic for one single day number (C46) is part of the statement."
 },
 "C46": {
  "note": "The property records a defect of the code: one day number panics."
 },
 "C53": {
  "note": "C53_leap_second proves the panic for chrono's leap seconds. External date-times are modelled by their civil fields."
 },
 "C59": {
  "note": "The value of the system clock is a parameter."
 }
}