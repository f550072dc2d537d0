K = 'Argo.Canusb.'
def k(pid, status, thms, note=''): c(pid, status, [K+x for x in thms], note)
k('C13','proved',['C13_registry'])
k('C14','proved',['C14_identifier','C15_accepts'])
k('C15','proved',['C15_accepts'])
k('C16','partial',['C16_false','C16_fatal','C16_stream_partial','C16_receive_partial','C16_partial','C16_long_enough'],'False: a line holding only the identifier panics. Exact crash condition proved, for one line (C16_partial, C16_receive_partial) and for any input of any number of adapters (C16_stream_partial: only at such a line; C16_fatal: at every such line).')
k('C17','proved',['C17_roundtrip','C19_sends'])
k('C18','partial',['C18_false','C18_partial'],'False: bit 17 of the PGN is dropped. Proved: PGN modulo 2^17 is preserved.')
k('C19','proved',['C19_sends','C19_short'])
k('C20','partial',['C20_roundtrip','C20_false_above_192','Send_fast','writeAll_prefix'],'Proved for 9..192 bytes; for 193..223 bytes proved that the payload is never delivered.')
k('C21','partial',['C21_false','C21_partial','Send_frames'],'False for every payload over 12 bytes; proved for 9..12.')
k('C22','proved',['C22_standard'])
k('C23','proved',['C23_isolation'])
k('C24','partial',['C24_false_group','C24_false_destination','C23_isolation'],'False for groups g, g+4 and for destinations; streams differing in PGN, source or group modulo 4 are isolated (C23_isolation).')
k('C25','partial',['C25_false','C25_partial'],'False: orphan continuation frames are delivered raw. Every other delivery is a complete chain.')
k('C26','proved',['C26_memory','C26_keys'])
k('C27','proved',['C27_read','C27_error','C27_session','session_read'])
k('C28','proved',['C28_closed'])
k('C29','proved',['C29_claim'])
k('C30','partial',['C30_false'],'False: every claim is addressed to 225.')
k('C31','partial',['C31_conflicts','C31_false_range'],'Address arithmetic proved for all histories; staying within 0..251 is false.')
k('C32','partial',['C32_false'],'False: it always panics.')
k('C80','proved',['C80_open'])
k('C85','proved',['C85_writes','C85_too_long','C85_total','C85_groups'])
k('C96','partial',['C96_false','C96_independent_partial','C96_lines_partial','C96_origin'],'False of the code (C96_false). Proved for adapters that do not receive fast packets of the same PGN, source and group (C96_independent_partial: any bytes, errors and interleaving); where every message comes from in any case: C96_origin. One loop body is atomic in the model; data races on the shared map are not modelled.')
c('C103','partial',['Argo.Can.C103_raw','Argo.Can.C103_frame','Argo.Can.C103_layout','Argo.Can.C103_frame_layout','Argo.Can.C103_false'],'Proved for the log line of a raw message. The text of a CAN frame omits its fast packet group (C103_false); C103_frame is what it determines.')
