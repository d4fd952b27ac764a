TIGHT = {
  "SWAP": ["C47_from_bytes, C47_on_stream, C47_values were added: for the classes whose layout is stated through a specification function, a change of both the reader and that function is now caught by the comparison with the schema"],
  "H081": ["C36_rounding, C36_signed_rounding, C36_limit, C36_signed_limit were added: the claim was only about exactly representable values and about the error of the others; the sum is now characterised as correctly rounded, ties to even (with the edited model toBinary64_iff and roundEven_tie fail)"],
  "V007": ["C79_old_api: it spoke only of modules that have the check, so that dropping the check of a decoder left it true; it is now about every module that imports kaitaistruct"],
}
