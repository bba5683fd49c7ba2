{
 "callComplexRe|sign odd": "equivalent: in the branch real_part_odd the first component is dead code (callComplex uses only the second one), so the edited program returns the same values",
 "porAt|no nan in por": "not a claim: no property speaks of por at a layer where beta is exactly zero (C163 states the nan for avp and set)",
 "FS.write|appended": "not a claim: C240 speaks of the files of runs that choose their number while no other run is choosing, and there a file is always empty when it is written (open truncates it); the edit shows only when two runs write the same file",
 "CcCr.plot|stored pstress used": "equivalent: eFromStress s none reads pstress as s itself (pstress.getD s), so the edited program returns the same values"
}