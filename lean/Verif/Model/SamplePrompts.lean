import Verif.Model.Bytes
/-
The prompt files shipped in /repo/sample/etc.
-/
namespace SudoPair

/-- sample/etc/sudo_pair.prompt.user. -/
def sampleUserPrompt : Bytes :=
  b! "Due to security and compliance requirements, this `sudo` session will require approval " ++
  b! "and monitoring.\n" ++
  b! "\n" ++
  b! "To continue, another human must run:\n" ++
  b! "\n" ++
  b! "    docker exec -it %h '%B %u %p'\n" ++
  b! "\n" ++
  b! "If a suitable human is not available and you have an immediate and urgent need to " ++
  b! "run this command, you may run the above command to approve your own session. \x1b[1mNote " ++
  b! "that doing so will immediately page an oncall security engineer, so this capability " ++
  b! "should only be used in the event of an emergency.\x1b[0m\n"

/-- sample/etc/sudo_pair.prompt.pair. -/
def samplePairPrompt : Bytes :=
  b! "You have been asked to approve and monitor the following sudo session:\n" ++
  b! "\n" ++
  b! "    <\x1b[1m\x1b[34m%U\x1b[0m@\x1b[1m\x1b[31m%h\x1b[0m:\x1b[1m\x1b[34m%d\x1b[0m \x1b[31m$\x1b[0m " ++
  b! "> %C\n" ++
  b! "\n" ++
  b! "Once approved, this terminal will mirror all output from the active sudo session " ++
  b! "until its completion.\n" ++
  b! "\n" ++
  b! "\x1b[1mClosing this terminal, losing your network connection to this host, or explicitly " ++
  b! "ending the session by typing <Ctrl-D> will cause the command being run under elevated " ++
  b! "privileges to terminate immediately.\x1b[0m\n" ++
  b! "\n" ++
  b! "Approve? y/n [n]: "

end SudoPair
