Z='Argo.Socket.'
c('C127','proved',[Z+x for x in ['C127_stream','C127_texts','C127_client','C127_close','C127_delta','C127_page']],
  'C127_stream: the bytes of any connection, cut anywhere and with a write failing anywhere, against a reader of RFC 6455; C127_texts, C127_client: the texts are an initial part of the broadcasts since registration; C127_close: after a close, all that was accepted; C127_delta: with the whole program, every text is the JSON of a delta (its hypotheses are those of C104 and that no message has 2^63 bytes). C127_page: the statistics connection and the table of the front page, from its bytes. The handshake and what the client sends are not modelled; WriteMessage is that of gorilla/websocket 1.2.0 for a server without compression.')
