{
 "C10": [
  "proved",
  "For any pieces, with the end reported separately or together; the remaining case (two readers that differ in how they report the end) is proved except at the exact edge, where C10_exception proves that the results differ."
 ],
 "C14": [
  "partial",
  "The claim is false of the code (C14_not_prompt is the counterexample, contrary to the doc comment of LookupFirstChar); proved: an invalid sequence is reported after at most two more bytes."
 ],
 "C27": [
  "partial",
  "The claim is false of the code for a machine that goes on across a split (C27_continuing_is_wrong); proved for restarting at splits, which is what ScanGraphemeClusters does, and for continuing when no regional indicator directly follows ExtPict/Consonant/Extend/ZWJ."
 ],
 "C38": [
  "partial",
  "The claim is false of the code for inputs over 2049 bytes (C38_false_for_longer_inputs: returned slices alias the Scanner's buffer); proved for all inputs up to 2049 bytes, the best possible bound."
 ]
}