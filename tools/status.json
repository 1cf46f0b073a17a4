{
 "C20": {"status": "partial", "note": "Proved outright for inputs and latches. For outputs, bad literals and constraints the full claim is false of the code (C20_refuted: two outputs on one node share a name slot); C20_outputs_partial proves it for every position whose node is not shared with another named position of the same section, and C20_exact says what is printed for every position: the last name given to any entry of the section on the same node."},
 "C22": {"status": "partial", "note": "C22_accepts_iff characterises acceptance exactly. The full claim is false of the code (C22_refuted: no inputs and a first latch that resets to 1); C22_accepts_partial proves it for all other circuits."},
 "C33": {"status": "partial", "note": "The full claim is false of the code (C33_counterexample: a bad literal that is itself a latch). C33_partial proves it for all circuits in which every latch among the bad literals is read by a gate in their cone; C33_exact shows that these are exactly the circuits for which the reduction keeps every bad literal."},
 "C42": {"status": "partial", "note": "The full claim is false of the code (C42_refuted: a bad literal that is itself a latch makes a release build answer Proof for an unsafe circuit). C42_proof_partial proves it for all circuits in debug builds, and in release builds for all circuits in which every latch among the bad literals is read by a gate in their cone."}
}
