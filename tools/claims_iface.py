I='Argo.Iface.'
def ki(pid,status,thms,note=''): c(pid,status,[I+x for x in thms],note)
ki('C88','proved',['C88_exit','C88_not_serial','C88_canusb','C88_ngt','C88_file','C88_registry','C88_registry_again'])
ki('C89','proved',['C89_play','C89_message','C89_deterministic','C89_long_line','C89_cases','C89_unreadable'],'JSON decoding of a line is a parameter here; C125 and C126 are about the bytes of the line. Stated with the 65536 byte limit of bufio.Scanner: C89_cases shows every content falls under C89_play or C89_long_line.')
ki('C90','partial',['C90_handover','C90_ngt_partial','C90_values','C90_harmless','C90_died','C90_error','C90_false'],'False of the code: a short message kills the process (C90_false). Proved: hand-over is the decoding, in order (C90_handover); if every message on the wire is harmless for the table nothing dies (C90_ngt_partial); when it dies it is on a message that is not harmless (C90_died).')
ki('C91','partial',['C91_handover','C91_addresses','C91_canusb_partial','C91_fast_packet_partial','C91_false'],'False of lone continuation frames (C91_false; exactly those, C25). Order and content are proved for every stream (C91_handover, C91_addresses); survival for streams of complete lines that do not crash the reader and whose messages are harmless, exactly which inputs are fatal: C98; several CANUSB interfaces at once: C96.')
