{
 "C03": {
  "status": "proved",
  "note": "C03_normalize states the exact range: the code adds or subtracts 360 only once, so the documented range is reached exactly for inputs in (-540, 540]; C03_single_step_fails is the deviation from the documented range."
 },
 "C07": {
  "status": "proved",
  "note": "C07_exact characterises the answer: proper crossing and no axis-parallel segment. C07_axis_parallel_never and C07_complete_fails are the deviation: axis-parallel crossings are missed."
 },
 "C13": {
  "status": "proved",
  "note": "For unique level ids; C13_duplicate_ids_throw shows what fails without."
 },
 "C18": {
  "status": "proved",
  "note": "For a non-negative shift and non-zero time stamps (zero is the code's 'no measurement yet' sentinel)."
 },
 "C22": {
  "status": "proved",
  "note": "For unique level ids and non-zero slope B."
 },
 "C31": {
  "status": "proved",
  "note": "The intended claim is false of the code: the function returns the origin for every input (C31_always_origin), refuted by C31_not_intended."
 },
 "C75": {
  "status": "proved",
  "note": "C75_hull and C75_origin together settle every OK answer for signal levels within 1000 dB: inside a triangle if a corner has three matches, else the origin (the deviation, with witness C75_origin_witness). C75_dichotomy is the version without the bound."
 },
 "C71": {
  "status": "proved",
  "note": "The original wish 'no two vertices at one point' is false of the code: C71_duplicates shows that every line with unmerged ends creates two vertices at one point."
 },
 "C87": {
  "status": "proved",
  "note": "Deviations proved: C87_eddystone, C87_unknown_type, C87_short_vector."
 },
 "C88": {
  "status": "proved",
  "note": "C88_set and C88_default are exhaustive; deviation from the header: C88_names_ignored."
 },
 "C119": {
  "status": "proved",
  "note": "Floor in use and place for any number of floors; the reported floor is the one of the last place."
 }
}