# property -> (status, note)
_N = {
"C01": "any list of widths, any starting position; refinement of read_bits_int_be to bit slices of the whole buffer",
"C02": "any history of reads up to the first exception (a failed bit read leaves stale bits in the runtime)",
"C03": "all Enum classes of the library",
"C04": "ASCII, UTF-8, UTF-16LE, UTF-16BE as used by the library",
"C07": "layout in terms of Verif/Spec/Hytera.lean; independent cross-check by C47",
"C08": "includes the defect: inside a frame the opcode is that of the frame",
"C09": "includes the defect: inside a frame the service is that of the frame",
"C18": "C18_telemetry is the exception to the round trip",
"C29": "RPTO is not routed by this class, as the theorem states",
"C35": "C35_positive_wrong states the defect",
"C36": "floats as exact rationals with a correctly rounding function on binary64",
"C37": "at most one document is read, as the theorems state",
"C40": "all protocol classes; table of exceptions per class",
"C41": "the classes in pduDecoders (123 sequential ones, telemetry, HDAP, HRNP); the others look at the end of the stream",
"C42": "the classes in pduDecoders",
"C43": "all protocol classes; the two exceptions are stated with exactly the bits they lose",
"C46": "message arguments that do not begin with '-'",
"C51": "encoders for ARS, Motorola text messages, HDAP, HRNP and HSTRP are in C15-C18, C38, C39",
"C56": "EOFError does not promise that a continuation is accepted (a wrong magic may only be noticed when all its bytes are there)",
"C55": "Homebrew packets decoded from the beginning of their stream; an access that raises may move the stream (example)",
"C54": "the object as built by the constructor; properties evaluated later (and their caches) are not counted",
"C48": "148 classes positive, 8 negative (counterexamples), HDAP other than telemetry positive",
"C58": "156 classes agree with their models, 11 raise on their own; the models are the decoders of the other claims (C58_models)",
"C60": "after decoding, for all objects that were read from the stream (Homebrew packets: from its beginning); C60_every_property: the source has no other properties",
"C61": "the functions of the source files themselves; the results are stated without the models",
"C64": "the 156 classes with a model; the eleven that cannot be used alone never return (C58_dependent)",
"C67": "not for the auxiliary attribute _raw__m_data, which a failed DmrDataHeader.data leaves behind; a property that gives None is evaluated again",
"C66": "the objects made by the constructor; a property evaluated later may add objects (C60)",
"C65": "40 equivalences for classes, C65_data_header for the property data, C65_property for all properties with values without parts",
"C63": "the eleven nested classes that cannot be used alone (C58_dependent) are not in the lists; trailing bytes and truncation for the 126 classes of C41, position for the 148 of C48, sequences for the 123 of C49",
"C62": "words beginning with a dash are options for argparse and not modelled; C62_every_command: there are no other commands",
"C47": "28 files, 128 of the 139 nested types on any stream; the other 11 depend on their context and are proved in it (Verif/Ksy/Conform)",
"C69": "each access to the shared memory is one indivisible step (as under the interpreter lock); threads are given plain arguments, so they do not share a stream or an object to begin with; what two threads do to one stream is outside",
"C70": "each access to the shared memory is one indivisible step; for the properties opcode, len_padding_if_exists, data and fifth_letter of a freshly decoded object it is false (C70_race)",
"C71": "each access to the shared memory is one indivisible step; addresses cannot be seen, so `x is y` is not a request; what is taken over is not copied, so programs that take over share objects and streams",
"C68": "steps are evaluated expressions and executed statements; the work inside a primitive (copying the bytes of a read, decoding a text) is not counted",
}
NOTES = {k: ("proved", v) for k, v in _N.items()}
